import Verif.Proofs.Server.Panics
/-! # The mark `subList` of a subscription, under the steps of its connection -/
namespace Stomp.Server
open Stomp

/-- No mark is taken away, and nothing is added to the connection's list. -/
structure MarksKept (k k' : Conn) : Prop where
  mark : ∀ i, (deref k.heap i).inList = true → (deref k'.heap i).inList = true
  list : ∀ i ∈ k'.subList, i ∈ k.subList

theorem MarksKept.same {k k' : Conn} (h1 : k'.heap = k.heap) (h2 : k'.subList = k.subList) : MarksKept k k' :=
  ⟨fun i hi => by rw [h1]; exact hi, fun i hi => by rw [← h2]; exact hi⟩

theorem MarksKept.trans {a b c : Conn} (h : MarksKept a b) (h' : MarksKept b c) : MarksKept a c :=
  ⟨fun i hi => h'.mark i (h.mark i hi), fun i hi => h.list i (h'.list i hi)⟩

theorem inList_frames (l : List Nat) (heap : List Sub) (j : Nat) : (deref (l.foldl (fun h i => putFrame h i none) heap) j).inList = (deref heap j).inList := by
  induction l generalizing heap with
  | nil => rfl
  | cons i l ih => rw [List.foldl_cons, ih, inList_putFrame]

theorem foldl_other (l : List Nat) (heap : List Sub) (j : Nat) (h : j ∉ l) : deref (l.foldl (fun h i => putInList h i false) heap) j = deref heap j := by
  induction l generalizing heap with
  | nil => rfl
  | cons i l ih =>
    rw [List.mem_cons, not_or] at h
    rw [List.foldl_cons, ih _ h.2, deref_putInList_ne _ _ (fun e => h.1 e.symm)]

theorem Applied.marksKept {c : Conn} {f : Frame} {c' : Conn} {r : Res} (h : Applied c f c' r) : MarksKept c c' := by
  cases h with
  | send => exact MarksKept.same rfl rfl
  | ack hc n =>
    refine ⟨fun i hi => ?_, fun i hi => (ackLoop_mem _ _ _).1 i hi⟩
    exact (inList_frames _ c.heap i).trans hi
  | nack hc n =>
    refine ⟨fun i hi => ?_, fun i hi => nackLoop_mem _ _ _ i hi⟩
    exact (inList_frames _ c.heap i).trans hi

theorem Committed.marksKept {c : Conn} {fs : List Frame} {c' : Conn} {r : Res} (h : Committed c fs c' r) : MarksKept c c' := by
  induction h with
  | nil => exact MarksKept.same rfl rfl
  | cons h _ ih => exact h.marksKept.trans ih
  | panic h => exact h.marksKept

theorem Rcpt.marksKept {c : Conn} {ok : Bool} {f : Frame} {c1 : Conn} {f1 : Frame} {k : Bool} (h : Rcpt c ok f c1 f1 k) : MarksKept c c1 := by
  cases h <;> exact MarksKept.same rfl rfl

theorem Handled.marksKept {c : Conn} {ok : Bool} {f : Frame} {c' : Conn} {f' : Frame} {r : Res} (h : Handled c ok f c' f' r) : MarksKept c c' := by
  cases h with
  | commitMissing => exact MarksKept.same rfl rfl
  | commitWrite _ _ _ hr => exact hr.marksKept
  | commitUnknown _ _ _ _ hr => exact hr.marksKept
  | commit _ _ _ _ _ hr hcm => exact (hr.marksKept.trans hcm.marksKept).trans (MarksKept.same rfl rfl)
  | basic hnc hb =>
    cases hb with
    | unexpected => exact MarksKept.same rfl rfl
    | disconnect hc hr => exact hr.marksKept
    | refused => exact MarksKept.same rfl rfl
    | writeFail hc hr => exact hr.marksKept
    | txErr _ _ _ _ _ hr => exact hr.marksKept
    | begin_ _ _ _ _ hr => exact hr.marksKept.trans (MarksKept.same rfl rfl)
    | abort _ _ _ _ _ hr => exact hr.marksKept.trans (MarksKept.same rfl rfl)
    | store _ _ _ _ _ _ hr => exact hr.marksKept.trans (MarksKept.same rfl rfl)
    | subscribe hc id dest =>
      refine ⟨fun i hi => ?_, fun i hi => hi⟩
      show (deref (c.heap ++ _) i).inList = true
      by_cases hlt : i < c.heap.length
      · rw [deref_append_lt _ _ _ hlt]; exact hi
      · rw [deref_ge _ _ (by omega)] at hi; cases hi
    | unsubscribe hc id hi i hg => exact MarksKept.same rfl rfl
    | send hc _ hr => exact hr.marksKept.trans (Applied.send (by rw [hr.command]; exact hc)).marksKept
    | ack hc _ n hid hr =>
      refine hr.marksKept.trans (Applied.ack (by rw [hr.command]; exact hc) n ?_).marksKept
      rw [hr.frame_eq]; rw [← hid]; exact ackId_strip (by decide) (by decide)
    | nack hc _ n hid hr =>
      refine hr.marksKept.trans (Applied.nack (by rw [hr.command]; exact hc) n ?_).marksKept
      rw [hr.frame_eq]; rw [← hid]; exact ackId_strip (by decide) (by decide)

/-- The subscriptions in the connection's list are marked. -/
def Marked (k : Conn) : Prop := ∀ i ∈ k.subList, (deref k.heap i).inList = true

/-- A mark is only taken away when the connection ends and empties its list. -/
theorem marked_step {cfg : Config} {c : Conn} {e : Conn.Ev} {c' : Conn} (hg : Gate cfg c) (hl : Loc c.core) (hi : Sys.internal e = true) (h : Step cfg c e c') (hm : Marked c) :
    Marked c' ∧ ∀ i, (deref c.heap i).inList = true → (deref c'.heap i).inList = true ∨ (i ∈ c.subList ∧ c.stage = .acklist) := by
  have full : ∀ {i l}, c.subCh = i :: l → ∃ m, (deref c.heap i).frame = some m := by
    intro i l h
    exact Option.isSome_iff_exists.1 (hl.full i (Or.inl (by show i ∈ c.subCh; rw [h]; simp)))
  have keep : MarksKept c c' → Marked c' ∧ ∀ i, (deref c.heap i).inList = true → (deref c'.heap i).inList = true ∨ (i ∈ c.subList ∧ c.stage = .acklist) :=
    fun h => ⟨fun i hi => h.mark i (hm i (h.list i hi)), fun i hi => Or.inl (h.mark i hi)⟩
  cases h with
  | recv => exact keep (MarksKept.same rfl rfl)
  | readErr => exact keep (MarksKept.same rfl rfl)
  | frame ok1 ok2 f q c1 _ f' r ha hq hsf hfin =>
    apply keep
    rcases frame_cases hg hsf hfin with ⟨_, v, cx, cy, _, ⟨_, rfl⟩ | ⟨_, rfl⟩⟩ | ⟨_, _, e, v, ⟨_, rfl⟩ | ⟨_, rfl⟩⟩ | ⟨_, hh', hf⟩
    · exact MarksKept.same rfl rfl
    · exact MarksKept.same rfl rfl
    · exact MarksKept.same rfl rfl
    · exact MarksKept.same rfl rfl
    · have h0 := hh'.marksKept
      have h1 : MarksKept c c1 := ⟨fun i hi => h0.mark i hi, fun i hi => h0.list i hi⟩
      cases hf with
      | ok => exact h1
      | panic => exact h1.trans (MarksKept.same rfl rfl)
      | err => exact h1.trans (MarksKept.same rfl rfl)
      | errFail => exact h1.trans (MarksKept.same rfl rfl)
  | readClosed => exact keep (MarksKept.same rfl rfl)
  | wrOk => exact keep (MarksKept.same rfl rfl)
  | wrErr => exact keep (MarksKept.same rfl rfl)
  | wrFail => exact keep (MarksKept.same rfl rfl)
  | subGone => exact keep (MarksKept.same rfl rfl)
  | subNil => exact keep (MarksKept.same rfl rfl)
  | subFail => exact keep ⟨fun i hi => by rw [inList_putFrame]; exact hi, fun i hi => hi⟩
  | subAuto =>
    refine keep ⟨fun i hi => ?_, fun i hi => hi⟩
    rw [show (Conn.emit _ _).heap = putFrame (putFrame c.heap _ _) _ _ from rfl, inList_putFrame, inList_putFrame]; exact hi
  | subPanic => exact keep ⟨fun i hi => by rw [inList_putFrame]; exact hi, fun i hi => hi⟩
  | subAdd i l j m _ hc _ hf _ hk hin =>
    have up : ∀ n, (deref c.heap n).inList = true → (deref (putInList (putFrame c.heap i (some (m.alloc c.lastMsgId (some (deref c.heap i).ack)))) i true) n).inList = true := by
      intro n hn
      rw [deref_putInList]
      split
      · rfl
      · rw [inList_putFrame]; exact hn
    refine ⟨fun n hn => ?_, fun n hn => Or.inl (up n hn)⟩
    have hn : n ∈ c.subList ++ [i] := hn
    rcases List.mem_append.1 hn with hn | hn
    · exact up n (hm n hn)
    · rw [List.mem_singleton] at hn; subst hn
      rw [deref_putInList, if_pos ⟨rfl, by rw [putFrame_length]; exact lt_of_frame hf⟩]
  | timerOk => exact keep (MarksKept.same rfl rfl)
  | timerFail => exact keep (MarksKept.same rfl rfl)
  | discard => exact keep (MarksKept.same rfl rfl)
  | discardEnd => exact keep (MarksKept.same rfl rfl)
  | acklist ho hst =>
    refine ⟨fun n hn => (by cases hn), fun n hn => ?_⟩
    by_cases hx : n ∈ c.subList
    · exact Or.inr ⟨hx, hst⟩
    · left
      show (deref (List.foldl _ c.heap c.subList) n).inList = true
      rw [foldl_other _ _ _ hx]; exact hn
  | drain => exact keep (MarksKept.same rfl rfl)
  | drainEnd => exact keep (MarksKept.same rfl rfl)
  | announce => exact keep (MarksKept.same rfl rfl)
  | unsub => exact keep (MarksKept.same rfl rfl)
  | flushed => cases hi
  | setFrame => cases hi
  | setInList => cases hi
  | pushSub => cases hi
  | pushTopic => cases hi

end Stomp.Server
