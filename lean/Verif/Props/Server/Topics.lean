import Verif.Proofs.Server.TopicSim
import Verif.Model.Server.TopicHeap
import Verif.Props.Header
import Verif.Props.Server.Deadlock
/-! # Topics (C39) -/
namespace Stomp.Server
open Stomp Stomp.Heap

/-- **C39.** For every destination that does not name a queue, in every execution: the requests the processor has handled for it ask for certain deliveries (every message
once for each subscription of that moment, in subscription order: `Spec.Topic`), and what has appeared in the write channels of the connections are exactly these
deliveries, in this order, each with the id of its subscription and otherwise unchanged, except those which the processor still has to do for the message in hand. -/
theorem C39_topic (cfg : Config) (es : List Sys.Ev) (s : Sys) (h : Sys.init.run cfg es = some s) (hc : s.crashed = false) (d : Bytes) (hd : ¬Spec.IsQueue d) :
    ∃ done, Spec.Topic (Spec.observe (Spec.askedTopic d) cfg Sys.init es) (done ++ Spec.stillToDo d s) (s.topics.list d) ∧
      Spec.Matched (Spec.Handed d s) done (Spec.observe (Spec.given d cfg) cfg Sys.init es) :=
  topic_run (by
    cases hq : isQueueDestination d with
    | false => rfl
    | true => exact absurd ((isQueue_iff d).1 hq) hd) h hc

/-! ## The frames are separate objects -/

/-- `Topic.Enqueue` interleaved with arbitrary other code (the connections that already have their frames, for instance) which does not
have a pointer to the frame `f` being sent. -/
inductive Casts (g : Nat → Nat → Nat) (f h : Nat) (a : Casting) : Casting → Prop
  | start : Casts g f h a a
  | other (op : Op) (c : Casting) (H : HHeap) : Casts g f h a c → (abs c.heap).legal op.spec → untouched h f op → exec g c.heap op = some H →
      Casts g f h a { c with heap := H }
  | send (c c' : Casting) : Casts g f h a c → c.send g f = some c' → Casts g f h a c'

theorem abs_frame {H : HHeap} {f : Nat} {o : FrameObj} (h : H.frames[f]? = some o) : (abs H).frames[f]? = some (absFrame H o) := by simp [abs, h]

theorem apply_frames_le (s : Stomp.Spec.Store) (op : Op) : s.frames.length ≤ (s.apply op.spec).frames.length := by
  cases op <;> simp only [Op.spec, Stomp.Spec.Store.apply] <;> first | exact Nat.le_refl _ | skip
  all_goals first | (rw [List.length_modify]; exact Nat.le_refl _) | (rw [List.length_append]; omega) | skip
  split <;> simp

theorem frameValue_eq {H : HHeap} {f : Nat} {o : FrameObj} (h : H.frames[f]? = some o) :
    heapFrameValue H f = some (o.command, (abs H).hdrs.getD o.hdr [], o.body.map (fun b => H.bodies.getD b [])) := by
  unfold heapFrameValue frameValue
  rw [abs_frame h]; rfl

/-- The value of a frame addressed to a subscription. -/
def Spec.addressed (id : Bytes) (v : Bytes × Stomp.Spec.Multimap × Option Bytes) : Bytes × Stomp.Spec.Multimap × Option Bytes :=
  (v.1, Stomp.Spec.mmPut v.2.1 b!"subscription" id, v.2.2)

theorem set_value {g : Nat → Nat → Nat} {H : HHeap} (hI : Inv H) {f : Nat} (hf : f < H.frames.length) (id : Bytes) :
    ∃ H', sendTopicFrame g H f id = some H' ∧ Inv H' ∧ H'.frames.length = H.frames.length ∧
      heapFrameValue H' f = (heapFrameValue H f).map (Spec.addressed id) ∧ H'.frames.map (·.hdr) = H.frames.map (·.hdr) ∧
      ∃ op, untouched (H.frames[f].hdr + 1) (f + 1) op ∧ (abs H).legal op.spec ∧ abs H' = (abs H).apply op.spec ∧
        ∀ f', f' ≠ f → ∀ h', h' ≠ H.frames[f].hdr → untouched h' f' op := by
  have ho : H.frames[f]? = some H.frames[f] := List.getElem?_eq_getElem hf
  generalize H.frames[f] = o at ho
  have hlt : o.hdr < (abs H).hdrs.length := by
    have := hI.fh f o ho; simpa [abs] using this
  obtain ⟨H', h1, h2, h3⟩ := exec_spec g H hI (.set o.hdr Hdr.subscription id) hlt
  have hfr : (abs H').frames = (abs H).frames := by rw [h3]; rfl
  have hlen : H'.frames.length = H.frames.length := by
    have := congrArg List.length hfr; simpa [abs] using this
  refine ⟨H', ?_, h2, hlen, ?_, ?_, .set o.hdr Hdr.subscription id, ?_, hlt, h3, ?_⟩
  · unfold sendTopicFrame; rw [ho]; exact h1
  · unfold heapFrameValue frameValue
    rw [hfr, abs_frame ho]
    simp only [Option.map_some, Option.some.injEq]
    unfold Spec.addressed
    rw [h3]
    simp only [Op.spec, Stomp.Spec.Store.apply]
    have e : (absFrame H o).hdr = o.hdr := rfl
    rw [e, List.getD_eq_getElem?_getD, List.getElem?_modify, List.getD_eq_getElem?_getD, List.getElem?_eq_getElem hlt]
    simp
    rfl
  · have : (abs H').frames.map (·.hdr) = (abs H).frames.map (·.hdr) := by rw [hfr]
    simpa [abs, absFrame, Function.comp_def] using this
  · show o.hdr ≠ o.hdr + 1; omega
  · intro f' _ h' hh'
    exact fun e => hh' e.symm

theorem clone_value {g : Nat → Nat → Nat} {H : HHeap} (hI : Inv H) {f : Nat} (hf : f < H.frames.length) :
    ∃ H', cloneFrame H f = some H' ∧ Inv H' ∧ H'.frames.length = H.frames.length + 1 ∧ heapFrameValue H' H.frames.length = heapFrameValue H f ∧
      abs H' = (abs H).apply (Op.spec (.cloneFrame f)) ∧ (abs H).legal (Op.spec (.cloneFrame f)) ∧
      H'.frames.map (·.hdr) = H.frames.map (·.hdr) ++ [H.hdrs.length] := by
  have hl : (abs H).legal (Op.spec (.cloneFrame f)) := by
    show f < (abs H).frames.length
    simpa [abs] using hf
  obtain ⟨H', h1, h2, h3⟩ := exec_spec g H hI (.cloneFrame f) hl
  have ho : H.frames[f]? = some H.frames[f] := List.getElem?_eq_getElem hf
  generalize H.frames[f] = o at ho
  have hap : abs H' = ⟨(abs H).hdrs ++ [(abs H).hdrs.getD o.hdr []], (abs H).frames ++ [⟨o.command, (abs H).hdrs.length, (absFrame H o).body⟩]⟩ := by
    rw [h3]; simp only [Op.spec, Stomp.Spec.Store.apply, abs_frame ho]; rfl
  have hlen : H'.frames.length = H.frames.length + 1 := by
    have := congrArg (fun s => s.frames.length) hap; simpa [abs] using this
  refine ⟨H', h1, h2, hlen, ?_, h3, hl, ?_⟩
  · unfold heapFrameValue frameValue
    rw [abs_frame ho, hap]
    have hcl : H.frames.length = (abs H).frames.length := by simp [abs]
    rw [hcl]
    simp only [List.getElem?_concat_length, Option.map_some, Option.some.injEq]
    rw [getD_append_self]; rfl
  · have : (abs H').frames.map (·.hdr) = (abs H).frames.map (·.hdr) ++ [(abs H).hdrs.length] := by rw [hap]; simp
    simpa [abs, absFrame, Function.comp_def] using this

/-- What holds at every moment of a broadcast. -/
structure CastInv (H0 : HHeap) (f h : Nat) (subs : List (SubRef × Bytes)) (c : Casting) : Prop where
  inv : Inv c.heap
  len : H0.frames.length ≤ c.heap.frames.length
  order : c.sent.map (fun s => (s.sub, s.id)) ++ c.todo = subs
  same : c.todo ≠ [] → ∃ o, c.heap.frames[f]? = some o ∧ o.hdr = h ∧ heapFrameValue c.heap f = heapFrameValue H0 f
  nodup : (c.sent.map (·.frame)).Nodup
  fresh : ∀ s ∈ c.sent, s.frame < c.heap.frames.length ∧ (c.todo ≠ [] → s.frame ≠ f) ∧ (s.frame = f ∨ H0.frames.length ≤ s.frame)
  sentOk : ∀ s ∈ c.sent, Inv s.heap ∧ s.frame < s.heap.frames.length ∧ heapFrameValue s.heap s.frame = (heapFrameValue H0 f).map (Spec.addressed s.id)

theorem other_keeps {g : Nat → Nat → Nat} {H H' : HHeap} (hI : Inv H) {op : Op} (hl : (abs H).legal op.spec) (he : exec g H op = some H') {f h : Nat} {o : FrameObj}
    (ho : H.frames[f]? = some o) (hh : o.hdr = h) (hu : untouched h f op) :
    Inv H' ∧ H.frames.length ≤ H'.frames.length ∧ ∃ o', H'.frames[f]? = some o' ∧ o'.hdr = h ∧ heapFrameValue H' f = heapFrameValue H f := by
  obtain ⟨H2, e1, e2, e3⟩ := exec_spec g H hI op hl
  rw [he] at e1; injection e1 with e1; subst e1
  have hhl : (absFrame H o).hdr < (abs H).hdrs.length := by
    have := hI.fh f o ho; simpa [abs, absFrame] using this
  obtain ⟨a1, a2, a3⟩ := apply_untouched (abs H) op f (absFrame H o) (abs_frame ho) hhl (by show untouched o.hdr f op; rw [hh]; exact hu)
  rw [← e3] at a1 a2
  refine ⟨e2, ?_, ?_⟩
  · have := apply_frames_le (abs H) op
    rw [← e3] at this; simpa [abs] using this
  · cases ho' : H'.frames[f]? with
    | none => have : (abs H').frames[f]? = none := by simp [abs, ho']
              rw [this] at a1; cases a1
    | some o' =>
      rw [abs_frame ho'] at a1
      injection a1 with a1
      refine ⟨o', rfl, ?_, ?_⟩
      · have := congrArg Stomp.Spec.FrameVal.hdr a1
        exact (show o'.hdr = o.hdr from this).trans hh
      · unfold heapFrameValue frameValue
        rw [abs_frame ho', abs_frame ho, a1]
        simp only [Option.map_some]
        rw [a2]

theorem exec_len {g : Nat → Nat → Nat} {H H' : HHeap} (hI : Inv H) {op : Op} (hl : (abs H).legal op.spec) (he : exec g H op = some H') :
    Inv H' ∧ H.frames.length ≤ H'.frames.length := by
  obtain ⟨H2, e1, e2, e3⟩ := exec_spec g H hI op hl
  rw [he] at e1; injection e1 with e1; subst e1
  refine ⟨e2, ?_⟩
  have := apply_frames_le (abs H) op
  rw [← e3] at this; simpa [abs] using this

theorem send_cast {g : Nat → Nat → Nat} {H0 : HHeap} {f h : Nat} {subs : List (SubRef × Bytes)} {c : Casting} (hc : CastInv H0 f h subs c) (ht : c.todo ≠ []) :
    ∃ c', c.send g f = some c' ∧ CastInv H0 f h subs c' := by
  obtain ⟨o, ho, hoh, hv⟩ := hc.same ht
  have hf : f < c.heap.frames.length := (List.getElem?_eq_some_iff.1 ho).1
  cases htodo : c.todo with
  | nil => exact absurd htodo ht
  | cons x rest =>
    cases rest with
    | nil =>
      obtain ⟨H', h1, h2, h3, h4, h5, _⟩ := set_value (g := g) hc.inv hf x.2
      refine ⟨⟨H', [], c.sent ++ [⟨x.1, x.2, f, H'⟩]⟩, ?_, ⟨h2, by dsimp only; rw [h3]; exact hc.len, ?_, fun h => absurd rfl h, ?_, ?_, ?_⟩⟩
      · unfold Casting.send; rw [htodo]; dsimp only; rw [h1]
      · rw [← hc.order, htodo]; simp
      · rw [List.map_append, List.nodup_append]
        refine ⟨hc.nodup, by simp, ?_⟩
        intro a ha b hb e
        obtain ⟨s, hs, rfl⟩ := List.mem_map.1 ha
        simp at hb; subst hb
        exact (hc.fresh s hs).2.1 ht e
      · intro s hs
        rcases List.mem_append.1 hs with hs | hs
        · obtain ⟨a1, a2, a3⟩ := hc.fresh s hs
          exact ⟨by dsimp only; omega, fun h => absurd rfl h, a3⟩
        · rw [List.mem_singleton] at hs; subst hs
          exact ⟨by dsimp only; omega, fun h => absurd rfl h, Or.inl rfl⟩
      · intro s hs
        rcases List.mem_append.1 hs with hs | hs
        · exact hc.sentOk s hs
        · rw [List.mem_singleton] at hs; subst hs
          exact ⟨h2, by dsimp only; omega, by dsimp only; rw [h4, hv]⟩
    | cons y rest =>
      obtain ⟨H1, c1, c2, c3, c4, c5, c6, c7⟩ := clone_value (g := g) hc.inv hf
      obtain ⟨H', h1, h2, h3, h4, h5, op, _, hol, hoa, hou⟩ := set_value (g := g) c2 (f := c.heap.frames.length) (by omega) x.2
      have hoh1 : (H1.frames[c.heap.frames.length]'(by omega)).hdr = c.heap.hdrs.length := by
        have := congrArg (fun l => l[c.heap.frames.length]?) c7
        simp only [List.getElem?_map] at this
        rw [List.getElem?_eq_getElem (by omega), List.getElem?_append_right (by simp)] at this
        simpa using this
      have hhlt : h < c.heap.hdrs.length := by
        have := hc.inv.fh f o ho; omega
      have hkeep : ∃ o', H'.frames[f]? = some o' ∧ o'.hdr = h ∧ heapFrameValue H' f = heapFrameValue c.heap f := by
        obtain ⟨_, _, o1, ho1, hoh1', hv1⟩ := other_keeps (g := g) hc.inv c6 (by show cloneFrame c.heap f = some H1; exact c1) ho hoh trivial
        have hne : f ≠ c.heap.frames.length := by omega
        have hex : (abs H1).hdrs.length = H1.hdrs.length := by simp [abs]
        have hhl : (absFrame H1 o1).hdr < (abs H1).hdrs.length := by
          have := c2.fh f o1 ho1; rw [hex]; exact this
        obtain ⟨a1, a2, a3⟩ := apply_untouched (abs H1) op f (absFrame H1 o1) (abs_frame ho1) hhl
          (hou f hne o1.hdr (by rw [hoh1', hoh1]; omega))
        rw [← hoa] at a1 a2
        cases ho' : H'.frames[f]? with
        | none => have : (abs H').frames[f]? = none := by simp [abs, ho']
                  rw [this] at a1; cases a1
        | some o' =>
          rw [abs_frame ho'] at a1
          injection a1 with a1
          refine ⟨o', rfl, ?_, ?_⟩
          · have := congrArg Stomp.Spec.FrameVal.hdr a1
            exact (show o'.hdr = o1.hdr from this).trans hoh1'
          · rw [← hv1]
            unfold heapFrameValue frameValue
            rw [abs_frame ho', abs_frame ho1, a1]
            simp only [Option.map_some]
            rw [a2]
      refine ⟨⟨H', y :: rest, c.sent ++ [⟨x.1, x.2, c.heap.frames.length, H'⟩]⟩, ?_, ⟨h2, ?_, ?_, ?_, ?_, ?_, ?_⟩⟩
      · unfold Casting.send; rw [htodo]; dsimp only; rw [c1]; dsimp only; rw [h1]
      · have := hc.len; dsimp only; omega
      · rw [← hc.order, htodo]; simp
      · intro _
        obtain ⟨o', b1, b2, b3⟩ := hkeep
        exact ⟨o', b1, b2, b3.trans hv⟩
      · rw [List.map_append, List.nodup_append]
        refine ⟨hc.nodup, by simp, ?_⟩
        intro a ha b hb e
        obtain ⟨s, hs, rfl⟩ := List.mem_map.1 ha
        simp at hb; subst hb
        have := (hc.fresh s hs).1; omega
      · intro s hs
        rcases List.mem_append.1 hs with hs | hs
        · obtain ⟨a1, a2, a3⟩ := hc.fresh s hs
          exact ⟨by dsimp only; omega, fun _ => a2 ht, a3⟩
        · rw [List.mem_singleton] at hs; subst hs
          have := hc.len
          exact ⟨by dsimp only; omega, fun _ => by dsimp only; omega, Or.inr this⟩
      · intro s hs
        rcases List.mem_append.1 hs with hs | hs
        · exact hc.sentOk s hs
        · rw [List.mem_singleton] at hs; subst hs
          exact ⟨h2, by dsimp only; omega, by dsimp only; rw [h4, c4, hv]⟩

theorem casts_inv {g : Nat → Nat → Nat} {H0 : HHeap} (hI : Inv H0) {f h : Nat} (hf : H0.frames[f]?.map (·.hdr) = some h) {subs : List (SubRef × Bytes)} {c : Casting}
    (hc : Casts g f h ⟨H0, subs, []⟩ c) : CastInv H0 f h subs c := by
  induction hc with
  | start =>
    refine ⟨hI, Nat.le_refl _, rfl, fun _ => ?_, by simp, by simp, by simp⟩
    cases ho : H0.frames[f]? with
    | none => rw [ho] at hf; cases hf
    | some o => rw [ho] at hf; exact ⟨o, by first | exact ho | rfl, by simpa using hf, rfl⟩
  | other op c H _ hl hu he ih =>
    obtain ⟨e1, e2⟩ := exec_len ih.inv hl he
    refine ⟨e1, Nat.le_trans ih.len e2, ih.order, fun ht => ?_, ih.nodup, fun s hs => ?_, ih.sentOk⟩
    · obtain ⟨o, ho, hoh, hv⟩ := ih.same ht
      obtain ⟨_, _, o', b1, b2, b3⟩ := other_keeps ih.inv hl he ho hoh hu
      exact ⟨o', b1, b2, b3.trans hv⟩
    · obtain ⟨a1, a2, a3⟩ := ih.fresh s hs
      exact ⟨Nat.lt_of_lt_of_le a1 e2, a2, a3⟩
  | send c c' _ hs ih =>
    have ht : c.todo ≠ [] := by
      intro ht; unfold Casting.send at hs; rw [ht] at hs; cases hs
    obtain ⟨c2, h1, h2⟩ := send_cast (g := g) ih ht
    rw [hs] at h1; injection h1 with h1; subst h1; exact h2

/-- **C39.** The frames handed out. Let a program reach any heap `H0` and let `f` be a frame of it; `Topic.Enqueue` sends `f` to any subscriptions, interleaved with any other code
that has no pointer to `f`. Then: it never fails; the subscriptions are served in order; every one gets a frame whose value is that of `f` with its own id as
`subscription`; all frames are different objects, and the value of each changes only by operations on that frame or on its header. -/
theorem C39_frames (g : Nat → Nat → Nat) (before : List Op) (hl : legalRun emptyStore before) (H0 : HHeap) (hr : run g HHeap.empty before = some H0) (f h : Nat)
    (hf : H0.frames[f]?.map (·.hdr) = some h) (subs : List (SubRef × Bytes)) (c : Casting) (hc : Casts g f h ⟨H0, subs, []⟩ c) :
    (c.todo ≠ [] → (c.send g f).isSome) ∧ c.sent.map (fun s => (s.sub, s.id)) ++ c.todo = subs ∧ (c.sent.map (·.frame)).Nodup ∧
    ∀ s ∈ c.sent, heapFrameValue s.heap s.frame = (heapFrameValue H0 f).map (Spec.addressed s.id) ∧
      ∃ hs, s.heap.frames[s.frame]?.map (·.hdr) = some hs ∧
        ∀ (after : List Op) (H : HHeap), legalRun (abs s.heap) after → run g s.heap after = some H → (∀ op ∈ after, untouched hs s.frame op) →
          heapFrameValue H s.frame = heapFrameValue s.heap s.frame := by
  obtain ⟨H0', r1, r2, r3⟩ := run_spec g HHeap.empty inv_empty before hl
  rw [hr] at r1; injection r1 with r1; subst r1
  have hi := casts_inv r2 hf hc
  refine ⟨fun ht => ?_, hi.order, hi.nodup, fun s hs => ?_⟩
  · obtain ⟨c', h1, _⟩ := send_cast (g := g) hi ht
    rw [h1]; rfl
  · obtain ⟨i1, i2, i3⟩ := hi.sentOk s hs
    have ho : s.heap.frames[s.frame]? = some s.heap.frames[s.frame] := List.getElem?_eq_getElem i2
    refine ⟨i3, s.heap.frames[s.frame].hdr, by rw [ho]; rfl, ?_⟩
    generalize s.heap.frames[s.frame] = o at ho
    intro after H l1 l2 l3
    obtain ⟨H2, s1, s2, s3⟩ := run_spec g s.heap i1 after l1
    rw [l2] at s1; injection s1 with s1; subst s1
    unfold heapFrameValue
    rw [s3]
    refine applyAll_untouched (abs s.heap) after s.frame (absFrame s.heap o) (abs_frame ho) ?_ l3
    have := i1.fh _ _ ho
    simpa [abs, absFrame] using this

/-- **C39.** The frames handed out exist and share no header, no header array and no body. -/
theorem C39_headers (g : Nat → Nat → Nat) (before : List Op) (hl : legalRun emptyStore before) (H0 : HHeap) (hr : run g HHeap.empty before = some H0) (f h : Nat)
    (hf : H0.frames[f]?.map (·.hdr) = some h) (subs : List (SubRef × Bytes)) (c : Casting) (hc : Casts g f h ⟨H0, subs, []⟩ c) (a b : Sent) (ha : a ∈ c.sent) (hb : b ∈ c.sent)
    (hab : a.frame ≠ b.frame) :
    ∃ x y sx sy, c.heap.frames[a.frame]? = some x ∧ c.heap.frames[b.frame]? = some y ∧ c.heap.hdrs[x.hdr]? = some sx ∧ c.heap.hdrs[y.hdr]? = some sy ∧
      x.hdr ≠ y.hdr ∧ sx.arr ≠ sy.arr ∧ ∀ p, x.body = some p → y.body ≠ some p := by
  obtain ⟨H0', r1, r2, r3⟩ := run_spec g HHeap.empty inv_empty before hl
  rw [hr] at r1; injection r1 with r1; subst r1
  have hci := casts_inv r2 hf hc
  have hi := hci.inv
  obtain ⟨x, hx⟩ : ∃ x, c.heap.frames[a.frame]? = some x := ⟨_, List.getElem?_eq_getElem (hci.fresh a ha).1⟩
  obtain ⟨y, hy⟩ : ∃ y, c.heap.frames[b.frame]? = some y := ⟨_, List.getElem?_eq_getElem (hci.fresh b hb).1⟩
  have hsx := List.getElem?_eq_getElem (hi.fh _ _ hx)
  have hsy := List.getElem?_eq_getElem (hi.fh _ _ hy)
  have hne := hi.fsep _ _ _ _ hx hy hab
  exact ⟨x, y, _, _, hx, hy, hsx, hsy, hne, hi.sep _ _ _ _ hsx hsy hne, fun p hp => hi.bsep _ _ _ _ p hx hy hab hp⟩

/-! ## Examples -/

/-- Two subscriptions of one connection, one of another; a message; the first unsubscribes; another message. -/
def topicRun : List Sys.Ev :=
  connectRun 0 ++ connectRun 1 ++ frameRun 0 topicSub ++ frameRun 0 ⟨b!"SUBSCRIBE", [(b!"id", b!"2"), (b!"destination", b!"/topic/a")], []⟩ ++ frameRun 1 topicSub ++
  frameRun 1 topicSend ++ [.push, .push, .push] ++ frameRun 0 ⟨b!"UNSUBSCRIBE", [(b!"id", b!"1")], []⟩ ++ frameRun 1 topicSend ++ [.push]

-- C39_topic: four deliveries are done, one is still to do.
example : ∃ s, Sys.init.run sampleCfg topicRun = some s ∧ s.crashed = false ∧ ¬Spec.IsQueue b!"/topic/a" ∧
    (Spec.observe (Spec.given b!"/topic/a" sampleCfg) sampleCfg Sys.init topicRun).map (fun x => (x.1, Stomp.Spec.firstValue x.2.frame.header b!"subscription", x.2.tag)) =
      [(0, some b!"1", ⟨1, 0⟩), (0, some b!"2", ⟨1, 0⟩), (1, some b!"1", ⟨1, 0⟩), (0, some b!"2", ⟨1, 1⟩)] ∧
    (Spec.stillToDo b!"/topic/a" s).length = 1 ∧ (s.topics.list b!"/topic/a").length = 2 :=
  ⟨_, rfl, by decide +kernel, by unfold Spec.IsQueue; decide +kernel, by decide +kernel, by decide +kernel, by decide +kernel⟩

/-- A program that makes a message. -/
def castProgram : List Op := [.newFrame b!"MESSAGE" [b!"destination", b!"/topic/a"], .setBody 0 b!"x"]

/-- The heap after it. -/
def castHeap : HHeap := (run (fun _ _ => 8) HHeap.empty castProgram).get (by decide)

/-- The broadcast of the message to three subscriptions: after the first send, after the first receiver has changed its frame, at the end. -/
def cast1 : Casting := (Casting.send (fun _ _ => 8) 0 ⟨castHeap, [(⟨0, 0⟩, b!"1"), (⟨0, 1⟩, b!"2"), (⟨1, 0⟩, b!"1")], []⟩).get (by decide)

@[inherit_doc cast1]
def cast2 : HHeap := (exec (fun _ _ => 8) cast1.heap (.set 1 b!"message-id" b!"7")).get (by decide)

@[inherit_doc cast1]
def cast3 : Casting := (Casting.send (fun _ _ => 8) 0 { cast1 with heap := cast2 }).get (by decide)

@[inherit_doc cast1]
def cast4 : Casting := (Casting.send (fun _ _ => 8) 0 cast3).get (by decide)

-- C39_frames, C39_headers.
example : legalRun emptyStore castProgram ∧ run (fun _ _ => 8) HHeap.empty castProgram = some castHeap ∧ castHeap.frames[0]?.map (·.hdr) = some 0 ∧
    Casts (fun _ _ => 8) 0 0 ⟨castHeap, [(⟨0, 0⟩, b!"1"), (⟨0, 1⟩, b!"2"), (⟨1, 0⟩, b!"1")], []⟩ cast4 ∧ cast4.sent.map (·.frame) = [1, 2, 0] :=
  ⟨by decide, (Option.some_get _).symm, by decide,
    .send _ _ (.send _ _ (.other (.set 1 b!"message-id" b!"7") _ _ (.send _ _ .start (Option.some_get _).symm) (by decide) (show (1 : Nat) ≠ 0 by decide) (Option.some_get _).symm) (Option.some_get _).symm) (Option.some_get _).symm, by decide⟩

end Stomp.Server
