import Verif.Proofs.Server.CoreFacts
import Verif.Proofs.Server.Gate
/-! # What a connection of the server does while its client sends nothing -/
namespace Stomp.Server
open Stomp

/-- What is written to a client that sends nothing: heart-beats, messages put on `writeChannel`, messages of subscriptions that are open. -/
def Unasked (c : Conn) (P : Msg → Prop) (Q : Nat → Prop) (w : Wr) : Prop :=
  w = ⟨none, none⟩ ∨
  (∃ m g, (m ∈ c.writeCh ∨ P m) ∧ w = ⟨some g, some m.tag⟩ ∧ g.command = m.frame.command ∧ g.body = m.frame.body) ∨
  ∃ i j g t, (i ∈ c.subCh ∨ Q i) ∧ c.subs.get? (deref c.heap i).id = some j ∧ w = ⟨some g, some t⟩

/-- How the connection changes meanwhile. -/
structure Silent (c c' : Conn) (P : Msg → Prop) (Q : Nat → Prop) : Prop where
  inq : c'.inq = []
  hist : c'.hist = c.hist
  effective : c'.effective = c.effective
  log : ∃ rs, c'.log = c.log ++ rs ∧ ∀ m, Req.enqueue m ∉ rs
  writeCh : ∀ m ∈ c'.writeCh, m ∈ c.writeCh ∨ P m
  subCh : ∀ i ∈ c'.subCh, i ∈ c.subCh ∨ Q i
  subs : ∀ id j, c'.subs.get? id = some j → c.subs.get? id = some j
  ids : ∀ i, (deref c'.heap i).id = (deref c.heap i).id
  out : ∃ ws, c'.out = c.out ++ ws ∧ ∀ w ∈ ws, Unasked c P Q w

theorem Unasked.mono {c : Conn} {P P' : Msg → Prop} {Q Q' : Nat → Prop} {w : Wr} (hP : ∀ m, P m → P' m) (hQ : ∀ i, Q i → Q' i) (h : Unasked c P Q w) : Unasked c P' Q' w := by
  rcases h with h | ⟨m, g, hm, h⟩ | ⟨i, j, g, t, hi, h⟩
  · exact .inl h
  · exact .inr (.inl ⟨m, g, hm.imp id (hP m), h⟩)
  · exact .inr (.inr ⟨i, j, g, t, hi.imp id (hQ i), h⟩)

theorem Silent.trans {c c' c'' : Conn} {P P' : Msg → Prop} {Q Q' : Nat → Prop} (h : Silent c c' P Q) (h' : Silent c' c'' P' Q') :
    Silent c c'' (fun m => P m ∨ P' m) (fun i => Q i ∨ Q' i) := by
  obtain ⟨rs, hl, hr⟩ := h.log
  obtain ⟨rs', hl', hr'⟩ := h'.log
  obtain ⟨ws, ho, hw⟩ := h.out
  obtain ⟨ws', ho', hw'⟩ := h'.out
  refine ⟨h'.inq, h'.hist.trans h.hist, h'.effective.trans h.effective, ⟨rs ++ rs', by rw [hl', hl, List.append_assoc], fun m hm => ?_⟩, fun m hm => ?_, fun i hi => ?_,
    fun id j hj => h.subs id j (h'.subs id j hj), fun i => (h'.ids i).trans (h.ids i), ⟨ws ++ ws', by rw [ho', ho, List.append_assoc], fun w hm => ?_⟩⟩
  · rcases List.mem_append.1 hm with hm | hm
    · exact hr m hm
    · exact hr' m hm
  · rcases h'.writeCh m hm with hm | hm
    · exact (h.writeCh m hm).imp id .inl
    · exact .inr (.inr hm)
  · rcases h'.subCh i hi with hi | hi
    · exact (h.subCh i hi).imp id .inl
    · exact .inr (.inr hi)
  · rcases List.mem_append.1 hm with hm | hm
    · exact (hw w hm).mono (fun _ => .inl) (fun _ => .inl)
    · rcases hw' w hm with hm | ⟨m, g, hm, hg⟩ | ⟨i, j, g, t, hi, hj, hg⟩
      · exact .inl hm
      · refine .inr (.inl ⟨m, g, ?_, hg⟩)
        rcases hm with hm | hm
        · exact (h.writeCh m hm).imp id .inl
        · exact .inr (.inr hm)
      · refine .inr (.inr ⟨i, j, g, t, ?_, by rw [← h.ids i]; exact h.subs _ _ hj, hg⟩)
        rcases hi with hi | hi
        · exact (h.subCh i hi).imp id .inl
        · exact .inr (.inr hi)

theorem id_putFrame (heap : List Sub) (i j : Nat) (m : Option Msg) : (deref (putFrame heap i m) j).id = (deref heap j).id := by
  rw [deref_putFrame]; split <;> rfl

theorem id_putInList (heap : List Sub) (i j : Nat) (b : Bool) : (deref (putInList heap i b) j).id = (deref heap j).id := by
  rw [deref_putInList]; split <;> rfl

theorem id_foldl (l : List Nat) (heap : List Sub) (j : Nat) : (deref (l.foldl (fun h i => putInList h i false) heap) j).id = (deref heap j).id := by
  induction l generalizing heap with
  | nil => rfl
  | cons i l ih => rw [List.foldl_cons, ih, id_putInList]

theorem silent_step {cfg : Config} {c c' : Conn} {e : Conn.Ev} (hq : c.inq = []) (he : ∀ f, e ≠ .recv f) (h : Step cfg c e c') :
    Silent c c' (fun m => e = .pushTopic m) (fun i => e = .pushSub i) := by
  have nolog : ∃ rs, c.log = c.log ++ rs ∧ ∀ m, Req.enqueue m ∉ rs := ⟨[], (List.append_nil _).symm, by simp⟩
  have noout : ∃ ws, c.out = c.out ++ ws ∧ ∀ w ∈ ws, Unasked c (fun m => e = .pushTopic m) (fun i => e = .pushSub i) w := ⟨[], (List.append_nil _).symm, by simp⟩
  have one : ∀ (d : Conn) (r : Req), d.log = c.log → (∀ m, r ≠ .enqueue m) → ∃ rs, (d.emit [r]).log = c.log ++ rs ∧ ∀ m, Req.enqueue m ∉ rs :=
    fun d r hd hr => ⟨[r], by show d.log ++ _ = _; rw [hd], fun m hm => hr m (List.mem_singleton.1 hm).symm⟩
  have w1 : ∀ (m : Msg) (w : List Msg), c.writeCh = m :: w → ∀ x ∈ w, x ∈ c.writeCh ∨ e = .pushTopic x := fun m w hw x hx => .inl (by rw [hw]; exact List.mem_cons_of_mem _ hx)
  have s1 : ∀ (i : Nat) (l : List Nat), c.subCh = i :: l → ∀ x ∈ l, x ∈ c.subCh ∨ e = .pushSub x := fun i l hl x hx => .inl (by rw [hl]; exact List.mem_cons_of_mem _ hx)
  have wrote : ∀ (m : Msg) (w : List Msg), c.writeCh = m :: w →
      ∃ ws, c.out ++ [⟨some (m.alloc c.lastMsgId none).frame, some m.tag⟩] = c.out ++ ws ∧ ∀ w ∈ ws, Unasked c (fun m => e = .pushTopic m) (fun i => e = .pushSub i) w :=
    fun m w hw => ⟨_, rfl, fun x hx => by
      rw [List.mem_singleton] at hx
      exact .inr (.inl ⟨m, _, .inl (by rw [hw]; exact List.mem_cons_self), hx, allocFrame_command _ _ _, allocFrame_body _ _ _⟩)⟩
  have subbed : ∀ (i : Nat) (l : List Nat) (j : Nat) (g : Frame) (t : Tag), c.subCh = i :: l → c.subs.get? (deref c.heap i).id = some j →
      ∃ ws, c.out ++ [⟨some g, some t⟩] = c.out ++ ws ∧ ∀ w ∈ ws, Unasked c (fun m => e = .pushTopic m) (fun i => e = .pushSub i) w :=
    fun i l j g t hl hj => ⟨_, rfl, fun x hx => by
      rw [List.mem_singleton] at hx
      exact .inr (.inr ⟨i, j, g, t, .inl (by rw [hl]; exact List.mem_cons_self), hj, hx⟩)⟩
  cases h with
  | recv f => exact absurd rfl (he f)
  | frame ok1 ok2 f q c1 _ f' r ha hq' => rw [hq] at hq'; cases hq'
  | readErr => exact ⟨hq, rfl, rfl, nolog, fun _ => .inl, fun _ => .inl, fun _ _ => id, fun _ => rfl, noout⟩
  | readClosed => exact ⟨hq, rfl, rfl, nolog, fun _ => .inl, fun _ => .inl, fun _ _ => id, fun _ => rfl, noout⟩
  | wrOk m w _ hw => exact ⟨hq, rfl, rfl, nolog, w1 m w hw, fun _ => .inl, fun _ _ => id, fun _ => rfl, wrote m w hw⟩
  | wrErr m w _ hw => exact ⟨hq, rfl, rfl, nolog, w1 m w hw, fun _ => .inl, fun _ _ => id, fun _ => rfl, wrote m w hw⟩
  | wrFail ok m w _ hw => exact ⟨hq, rfl, rfl, nolog, w1 m w hw, fun _ => .inl, fun _ _ => id, fun _ => rfl, noout⟩
  | subGone ok i l _ hl => exact ⟨hq, rfl, rfl, one _ _ rfl (by simp), fun _ => .inl, s1 i l hl, fun _ _ => id, fun _ => rfl, noout⟩
  | subNil ok i l j _ hl => exact ⟨hq, rfl, rfl, nolog, fun _ => .inl, s1 i l hl, fun _ _ => id, fun _ => rfl, noout⟩
  | subFail ok i l j m _ hl => exact ⟨hq, rfl, rfl, nolog, fun _ => .inl, s1 i l hl, fun _ _ => id, fun _ => id_putFrame _ _ _ _, noout⟩
  | subAuto i l j m _ hl hg => exact ⟨hq, rfl, rfl, one _ _ rfl (by simp), fun _ => .inl, s1 i l hl, fun _ _ => id,
      fun _ => (id_putFrame _ _ _ _).trans (id_putFrame _ _ _ _), subbed i l j _ _ hl hg⟩
  | subPanic i l j m _ hl hg => exact ⟨hq, rfl, rfl, nolog, fun _ => .inl, s1 i l hl, fun _ _ => id, fun _ => id_putFrame _ _ _ _, subbed i l j _ _ hl hg⟩
  | subAdd i l j m _ hl hg => exact ⟨hq, rfl, rfl, nolog, fun _ => .inl, s1 i l hl, fun _ _ => id, fun _ => (id_putInList _ _ _ _).trans (id_putFrame _ _ _ _), subbed i l j _ _ hl hg⟩
  | timerOk => exact ⟨hq, rfl, rfl, nolog, fun _ => .inl, fun _ => .inl, fun _ _ => id, fun _ => rfl, ⟨_, rfl, fun w hw => .inl (List.mem_singleton.1 hw)⟩⟩
  | timerFail => exact ⟨hq, rfl, rfl, nolog, fun _ => .inl, fun _ => .inl, fun _ _ => id, fun _ => rfl, noout⟩
  | discard m w _ _ hw => exact ⟨hq, rfl, rfl, nolog, w1 m w hw, fun _ => .inl, fun _ _ => id, fun _ => rfl, noout⟩
  | discardEnd => exact ⟨hq, rfl, rfl, nolog, fun _ => .inl, fun _ => .inl, fun _ _ => id, fun _ => rfl, noout⟩
  | acklist => exact ⟨hq, rfl, rfl, ⟨_, rfl, by simp⟩, fun _ => .inl, fun _ => .inl, fun _ _ => id, fun _ => id_foldl _ _ _, noout⟩
  | drain i l _ _ hl => exact ⟨hq, rfl, rfl, one _ _ rfl (by simp), fun _ => .inl, s1 i l hl, fun _ _ => id, fun _ => rfl, noout⟩
  | drainEnd => exact ⟨hq, rfl, rfl, nolog, fun _ => .inl, fun _ => .inl, fun _ _ => id, fun _ => rfl, noout⟩
  | announce => exact ⟨hq, rfl, rfl, one _ _ rfl (by simp), fun _ => .inl, fun _ => .inl, fun _ _ => id, fun _ => rfl, noout⟩
  | unsub order => exact ⟨hq, rfl, rfl, ⟨_, rfl, by simp⟩, fun _ => .inl, fun _ => .inl, fun _ _ h => (by cases h), fun _ => rfl, noout⟩
  | flushed => exact ⟨hq, rfl, rfl, nolog, fun _ => .inl, fun _ => .inl, fun _ _ => id, fun _ => rfl, noout⟩
  | setFrame i m => exact ⟨hq, rfl, rfl, nolog, fun _ => .inl, fun _ => .inl, fun _ _ => id, fun _ => id_putFrame _ _ _ _, noout⟩
  | setInList i b => exact ⟨hq, rfl, rfl, nolog, fun _ => .inl, fun _ => .inl, fun _ _ => id, fun _ => id_putInList _ _ _ _, noout⟩
  | pushSub i => exact ⟨hq, rfl, rfl, nolog, fun _ => .inl, fun x hx => (List.mem_append.1 hx).imp id (fun h => by rw [List.mem_singleton.1 h]), fun _ _ => id, fun _ => rfl, noout⟩
  | pushTopic m => exact ⟨hq, rfl, rfl, nolog, fun x hx => (List.mem_append.1 hx).imp id (fun h => by rw [List.mem_singleton.1 h]), fun _ => .inl, fun _ _ => id, fun _ => rfl, noout⟩

end Stomp.Server
