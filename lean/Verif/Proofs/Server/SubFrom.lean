import Verif.Proofs.Server.Places
/-! # Subscriptions come from SUBSCRIBE frames; MESSAGE frames are tagged -/
namespace Stomp.Server
open Stomp
open Stomp.Spec (firstValue)

/-- The subscription is as the SUBSCRIBE frame says. -/
structure MadeBy (x : Sub) (q : Frame) : Prop where
  command : q.command = b!"SUBSCRIBE"
  id : firstValue q.header b!"id" = some x.id
  dest : firstValue q.header b!"destination" = some x.dest
  ack : (firstValue q.header b!"ack").getD b!"auto" = x.ack
  msgId : x.msgId = 0

theorem heap_static {h h' : List Sub} (e : h'.map (fun s => (s.id, s.dest, s.ack, s.msgId)) = h.map (fun s => (s.id, s.dest, s.ack, s.msgId)))
    {x : Sub} (hx : x ∈ h') : ∃ y ∈ h, y.id = x.id ∧ y.dest = x.dest ∧ y.ack = x.ack ∧ y.msgId = x.msgId := by
  have : (x.id, x.dest, x.ack, x.msgId) ∈ h'.map (fun s => (s.id, s.dest, s.ack, s.msgId)) := List.mem_map.2 ⟨x, hx, rfl⟩
  rw [e] at this
  obtain ⟨y, hy, hxy⟩ := List.mem_map.1 this
  simp only [Prod.mk.injEq] at hxy
  exact ⟨y, hy, hxy⟩

/-- All subscriptions come from SUBSCRIBE frames. -/
def HeapFrom (c : Conn) : Prop := ∀ x ∈ c.heap, ∃ q ∈ c.hist, MadeBy x q

theorem HeapFrom.static {c c' : Conn} (h : HeapFrom c)
    (e : c'.heap.map (fun s => (s.id, s.dest, s.ack, s.msgId)) = c.heap.map (fun s => (s.id, s.dest, s.ack, s.msgId))) (hh : ∀ f ∈ c.hist, f ∈ c'.hist) :
    HeapFrom c' := by
  intro x hx
  obtain ⟨y, hy, h1, h2, h3, h4⟩ := heap_static e hx
  obtain ⟨q, hq, hm⟩ := h y hy
  exact ⟨q, hh q hq, ⟨hm.command, by rw [← h1]; exact hm.id, by rw [← h2]; exact hm.dest, by rw [← h3]; exact hm.ack, by rw [← h4]; exact hm.msgId⟩⟩

theorem heapFrom_run {cfg : Config} {me : Nat} {es : List Conn.Ev} {c : Conn} (h : (Conn.init me).run cfg es = some c) : HeapFrom c := by
  refine (gate_induction (P := HeapFrom) (fun c e c' hg hp hs => ?_) es c (by simp [HeapFrom, Conn.init]) h).2
  cases hfr : isFrame e with
  | false =>
    have q := quiet_step hs hfr
    exact hp.static q.heap (fun f hf => by rw [q.hist]; exact hf)
  | true =>
    cases hs with
    | frame ok1 ok2 f q c1 _ f' r ha hq hsf hfin =>
      have up : ∀ g ∈ c.hist, g ∈ c.hist ++ [f] := fun g hg => List.mem_append_left _ hg
      rcases frame_cases hg hsf hfin with ⟨_, v, cx, cy, _, ⟨_, rfl⟩ | ⟨_, rfl⟩⟩ | ⟨_, _, e, v, ⟨_, rfl⟩ | ⟨_, rfl⟩⟩ | ⟨_, hh', hf⟩
      · exact hp.static rfl up
      · exact hp.static rfl up
      · exact hp.static rfl up
      · exact hp.static rfl up
      · have hk : c1.hist = c.hist ++ [f] := hh'.keeps.hist
        have h1 : HeapFrom c1 := by
          rcases hh'.subs with ⟨_, h2⟩ | ⟨_, hc, id, dest, hid, hd, _, _, h2⟩ | ⟨_, _, id, i, _, _, _, h2⟩
          · exact hp.static h2 (fun g hg => by rw [hk]; exact up g hg)
          · intro x hx
            rw [h2] at hx
            rcases List.mem_append.1 hx with hx | hx
            · obtain ⟨q, hq, hm⟩ := hp x hx
              exact ⟨q, by rw [hk]; exact up q hq, hm⟩
            · rw [List.mem_singleton] at hx; subst hx
              refine ⟨f, by rw [hk]; simp, hc, ?_, ?_, ?_, rfl⟩
              · rw [contains_eq] at hid; exact hid
              · rw [contains_eq] at hd; exact hd
              · show _ = (f.header.contains Hdr.ack).getD ackAuto
                rw [contains_eq]; rfl
          · exact hp.static (by rw [h2]) (fun g hg => by rw [hk]; exact up g hg)
        cases hf <;> exact h1.static rfl (fun g hg => hg)
    | _ => cases hfr

/-- MESSAGE frames are written with a tag only. -/
theorem messageTagged_run {cfg : Config} {me : Nat} {es : List Conn.Ev} {c : Conn} (h : (Conn.init me).run cfg es = some c) (he : ∀ e ∈ es, EnvOk e) :
    ∀ w ∈ c.out, ∀ g, w.frame = some g → g.command = b!"MESSAGE" → ∃ t, w.tag = some t := by
  refine (run_inv (P := fun c => ∀ w ∈ c.out, ∀ g, w.frame = some g → g.command = b!"MESSAGE" → ∃ t, w.tag = some t)
    (fun c e c' hg hm _ hp hs => ?_) es c he (by simp [Conn.init]) h).2.2
  rcases out_step hg hm hs with ⟨h1, _⟩ | ⟨_, _, _, new, h1, h2⟩ | ⟨_, _, h1, _⟩ | ⟨_, _, m, a, _, _, h1⟩
  · rw [h1]; exact hp
  · intro w hw g hg hc
    rw [h1] at hw
    rcases List.mem_append.1 hw with hw | hw
    · exact hp w hw g hg hc
    · obtain ⟨_, g', h3, h4⟩ := h2 w hw
      rw [hg] at h3; injection h3 with h3; subst h3
      rw [hc] at h4; exact absurd h4 (by decide)
  · intro w hw g hg hc
    rw [h1] at hw
    rcases List.mem_append.1 hw with hw | hw
    · exact hp w hw g hg hc
    · rw [List.mem_singleton] at hw; subst hw; cases hg
  · intro w hw g hg hc
    rw [h1] at hw
    rcases List.mem_append.1 hw with hw | hw
    · exact hp w hw g hg hc
    · rw [List.mem_singleton] at hw; subst hw; exact ⟨_, rfl⟩

theorem firstValue_filter (p : Bytes → Bool) (k : Bytes) (hk : p k = true) (h : Header) : firstValue (h.filter (fun e => p e.1)) k = firstValue h k := by
  induction h with
  | nil => rfl
  | cons e h ih =>
    obtain ⟨k', v'⟩ := e
    rw [List.filter_cons]
    split
    · rw [firstValue_cons, firstValue_cons, ih]
    · rename_i hn
      rw [ih, firstValue_cons, if_neg]
      rintro rfl
      exact hn hk

theorem clean_value (f : Frame) (k : Bytes) (hk : k ≠ b!"receipt" ∧ k ≠ b!"transaction") : firstValue (Spec.clean f).header k = firstValue f.header k :=
  firstValue_filter (fun k => decide (k ≠ b!"receipt" ∧ k ≠ b!"transaction")) k (decide_eq_true hk) f.header

theorem filter_filter_key (p q r : Bytes → Bool) (h : Header) (hr : ∀ k, r k = (p k && q k)) :
    (h.filter (fun e => q e.1)).filter (fun e => p e.1) = h.filter (fun e => r e.1) := by
  rw [List.filter_filter]
  congr 1
  funext e
  exact (hr e.1).symm

theorem application_clean (f : Frame) : Spec.application (Spec.clean f).header = Spec.application f.header := by
  unfold Spec.application Spec.clean
  dsimp only
  rw [List.filter_filter]
  congr 1
  funext e
  rw [← Bool.decide_and]
  congr 1
  rw [eq_iff_iff]
  constructor
  · exact fun h => h.1
  · exact fun h => ⟨h, h.2⟩

theorem application_others {a b : Header} (h : Spec.others a = Spec.others b) : Spec.application a = Spec.application b := by
  have key : ∀ a, Spec.application a = (Spec.others a).filter (fun e => decide (e.1 ≠ b!"receipt" ∧ e.1 ≠ b!"transaction")) := by
    intro a
    unfold Spec.application Spec.others
    rw [List.filter_filter]
    congr 1
    funext e
    rw [← Bool.decide_and]
    congr 1
    rw [eq_iff_iff]
    constructor
    · exact fun h => ⟨h.2, h.1⟩
    · exact fun h => ⟨h.2, h.1⟩
  rw [key, key, h]

/-- A message made from frames. -/
theorem messages_from {me i : Nat} {fs : List Frame} {a : Msg} (ha : a ∈ Spec.messages me i fs) :
    ∃ f ∈ fs, f.command = b!"SEND" ∧ a.frame = { f with command := b!"MESSAGE" } := by
  induction fs generalizing i with
  | nil => cases ha
  | cons f fs ih =>
    simp only [Spec.messages] at ha
    split at ha
    · rename_i hf
      rcases List.mem_cons.1 ha with rfl | ha
      · exact ⟨f, List.mem_cons_self, hf, rfl⟩
      · obtain ⟨g, h1, h2⟩ := ih ha; exact ⟨g, List.mem_cons_of_mem _ h1, h2⟩
    · obtain ⟨g, h1, h2⟩ := ih ha; exact ⟨g, List.mem_cons_of_mem _ h1, h2⟩

end Stomp.Server
