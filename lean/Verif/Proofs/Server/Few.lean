import Verif.Proofs.Server.OpenSubs
import Verif.Proofs.Server.Addr
import Verif.Spec.Queue
/-! # The subscriptions a connection has ever made, in whatever stage it is -/
namespace Stomp.Server
open Stomp
open Stomp.Spec (firstValue)

/-- What is kept of a subscription that never changes. -/
abbrev heapView (c : Conn) : List (Bytes × Bytes) := c.heap.map (fun s => (s.id, s.dest))

/-- A frame makes at most the subscription it asks for. -/
theorem Handled.heapView {c : Conn} {ok : Bool} {f : Frame} {c' : Conn} {f' : Frame} {r : Res} (h : Handled c ok f c' f' r) :
    heapView c' = heapView c ∨ ∃ p, Spec.opens f = some p ∧ heapView c' = heapView c ++ [p] := by
  have key : ∀ {c1 : Conn} {f1 : Frame} {k : Bool}, Rcpt c ok f c1 f1 k → c1.heap = c.heap := fun hr => hr.frame.2.2.2.1
  have same : ∀ {x : Conn}, x.heap = c.heap → Server.heapView x = Server.heapView c := fun h => by unfold Server.heapView; rw [h]
  rcases h.subsExact with ⟨e, rfl⟩ | ⟨_, _, _, h2⟩ | ⟨hc, id, dest, hid, hd, _, _, h2⟩ | ⟨_, _, _, _, _, _, h2⟩
  · left
    cases h with
    | commitMissing => rfl
    | commitWrite _ _ _ hr => exact same (key hr)
    | commitUnknown _ _ _ _ hr => exact same (key hr)
    | commit hc _ _ _ _ hr hcm => exact heapView_static (hcm.static.2.trans (by rw [key hr]))
    | basic hnc hb =>
      generalize hr0 : Res.err e = r0 at hb
      cases hb with
      | unexpected => rfl
      | disconnect => cases hr0
      | refused => rfl
      | writeFail _ hr => exact same (key hr)
      | txErr _ _ _ _ _ hr => exact same (key hr)
      | begin_ => cases hr0
      | abort => cases hr0
      | store => cases hr0
      | subscribe => cases hr0
      | unsubscribe => cases hr0
      | send => cases hr0
      | ack _ _ _ _ hr => exact heapView_static ((static_clearFrames _ _).trans (by dsimp only; rw [key hr]))
      | nack _ _ _ _ hr => exact heapView_static ((static_clearFrames _ _).trans (by dsimp only; rw [key hr]))
  · exact Or.inl (heapView_static h2)
  · refine Or.inr ⟨(id, dest), ?_, ?_⟩
    · unfold Spec.opens Spec.hdr
      rw [contains_eq] at hid hd
      rw [if_pos (show f.command = b!"SUBSCRIBE" from hc), show firstValue f.header b!"id" = some id from hid, show firstValue f.header b!"destination" = some dest from hd]
    · unfold Server.heapView; rw [h2]; simp [newSubscription]
  · exact Or.inl (same h2)

/-- In whatever stage the connection is: its subscriptions are made by SUBSCRIBE frames it has processed. -/
def HeapPre (c : Conn) : Prop := heapView c <+: c.hist.filterMap Spec.opens

theorem heapPre_step {cfg : Config} {c : Conn} {e : Conn.Ev} {c' : Conn} (hg : Gate cfg c) (ho : OpenInv c) (hp : HeapPre c)
    (h : Step cfg c e c') : HeapPre c' := by
  cases hfr : isFrame e with
  | false =>
    have q := quiet_step h hfr
    unfold HeapPre heapView
    rw [heapView_static q.heap, q.hist]; exact hp
  | true =>
    cases h with
    | frame ok1 ok2 f q c1 _ f' r ha hq hsf hfin =>
      have hrun : c.stage = .run := (atSelect_run ha).1
      have he : heapView c = c.hist.filterMap Spec.opens := ho.heap hrun
      have more : ∀ {x : Conn}, heapView x = heapView c → x.hist = c.hist ++ [f] → HeapPre x := by
        intro x h1 h2
        unfold HeapPre
        rw [h1, h2, List.filterMap_append]
        exact hp.trans (List.prefix_append _ _)
      rcases frame_cases hg hsf hfin with ⟨_, v, cx, cy, hacc, hc⟩ | ⟨_, _, e, v, ⟨_, rfl⟩ | ⟨_, rfl⟩⟩ | ⟨_, hh', hf⟩
      · rcases hc with ⟨_, rfl⟩ | ⟨_, rfl⟩ <;> exact more rfl rfl
      · exact more rfl rfl
      · exact more rfl rfl
      · have hk : c1.hist = c.hist ++ [f] := hh'.keeps.hist
        have this : HeapPre c1 := by
          rcases hh'.heapView with h1 | ⟨p, h1, h2⟩
          · exact more h1 hk
          · unfold HeapPre
            have h2 : heapView c1 = heapView c ++ [p] := h2
            rw [h2, hk, he, List.filterMap_append]
            simp [h1]
        cases hf <;> exact this
    | _ => cases hfr

theorem heapPre_run {cfg : Config} {me : Nat} {es : List Conn.Ev} {c : Conn} (h : (Conn.init me).run cfg es = some c) : HeapPre c :=
  (gate_induction (P := fun c => (SubsOk c ∧ OpenInv c) ∧ HeapPre c)
    (fun _ _ _ hg hp hs => ⟨⟨subsOk_step hg hp.1.1 hs, openInv_step hg hp.1.1 hp.1.2 hs⟩, heapPre_step hg hp.1.2 hp.2 hs⟩) es c
    ⟨⟨⟨List.nodup_nil, by simp [Conn.init]⟩, ⟨fun _ => rfl, fun _ => rfl⟩⟩, List.prefix_refl _⟩ h).2.2

/-- A list of different numbers, one of the numbers below `n` not among them, is shorter than `n`. -/
theorem short_of_missing {l : List Nat} {n i : Nat} (hd : l.Nodup) (hl : ∀ j ∈ l, j < n) (hi : i < n) (hn : i ∉ l) : l.length < n := by
  have h1 : (i :: l).Nodup := List.nodup_cons.2 ⟨hn, hd⟩
  have h2 : (i :: l) ⊆ List.range n := by
    intro j hj
    rcases List.mem_cons.1 hj with rfl | hj
    · exact List.mem_range.2 hi
    · exact List.mem_range.2 (hl j hj)
  have := h1.length_le_of_subset h2
  simpa [Nat.succ_le_iff] using this

end Stomp.Server
