import Verif.Proofs.Server.Conserve
import Verif.Proofs.Server.Watch
/-! # Accesses of a connection's steps, and what stays in the `subChannel` -/
namespace Stomp.Server
open Stomp

/-- What is left in the `subChannel` has not been touched. -/
theorem Mic.kept {a b : Core} (hl : Loc a) (hm : Mic a b) :
    (∃ x, a.subCh = x ++ b.subCh) ∧ ∀ i ∈ b.subCh, deref b.heap i = deref a.heap i := by
  have inList : ∀ {i j x y}, a.subList = x ++ i :: y → j ∈ a.subCh → i ≠ j := by
    rintro i j x y h hj rfl
    have h1 := hl.tok i
    unfold Core.tok at h1
    have h2 : 0 < a.subCh.count i := List.count_pos_iff.2 hj
    have h3 : 0 < a.subList.count i := List.count_pos_iff.2 (by rw [h]; simp)
    omega
  have inHead : ∀ {i j l}, a.subCh = i :: l → j ∈ l → i ≠ j := by
    rintro i j l h hj rfl
    have h1 := hl.tok i
    unfold Core.tok at h1
    rw [h, List.count_cons_self] at h1
    have h2 : 0 < l.count i := List.count_pos_iff.2 hj
    omega
  cases hm with
  | dropWrite => exact ⟨⟨[], rfl⟩, fun _ _ => rfl⟩
  | connected => exact ⟨⟨[], rfl⟩, fun _ _ => rfl⟩
  | disconnected => exact ⟨⟨[], rfl⟩, fun _ _ => rfl⟩
  | unsub => exact ⟨⟨[], rfl⟩, fun _ _ => rfl⟩
  | newSub =>
    refine ⟨⟨[], rfl⟩, fun i hi => ?_⟩
    refine deref_append_lt _ _ _ (hl.idx i ?_)
    unfold Core.tok
    have : 0 < a.subCh.count i := List.count_pos_iff.2 hi
    omega
  | send => exact ⟨⟨[], rfl⟩, fun _ _ => rfl⟩
  | effect => exact ⟨⟨[], rfl⟩, fun _ _ => rfl⟩
  | ack i x y m h hm => exact ⟨⟨[], rfl⟩, fun j hj => deref_putFrame_ne _ _ (inList h hj)⟩
  | nack i x y m h hm => exact ⟨⟨[], rfl⟩, fun j hj => deref_putFrame_ne _ _ (inList h hj)⟩
  | back i l m h hm => exact ⟨⟨[i], h⟩, fun _ _ => rfl⟩
  | lose i l m n h hm => exact ⟨⟨[i], h⟩, fun j hj => deref_putFrame_ne _ _ (inHead h hj)⟩
  | auto i l m h hm => exact ⟨⟨[i], h⟩, fun j hj => deref_putFrame_ne _ _ (inHead h hj)⟩
  | hold i l m n h hm =>
    refine ⟨⟨[i], h⟩, fun j hj => ?_⟩
    show deref (putInList (putFrame a.heap i _) i true) j = _
    rw [deref_putInList_ne _ _ (inHead h hj), deref_putFrame_ne _ _ (inHead h hj)]
  | release i l m h hm => exact ⟨⟨[], rfl⟩, fun j hj => deref_putInList_ne _ _ (inList (x := []) h hj)⟩

theorem Mics.kept {a b : Core} (hl : Loc a) (hm : Mics a b) :
    (∃ x, a.subCh = x ++ b.subCh) ∧ ∀ i ∈ b.subCh, deref b.heap i = deref a.heap i := by
  induction hm with
  | refl => exact ⟨⟨[], rfl⟩, fun _ _ => rfl⟩
  | step h hm ih =>
    obtain ⟨⟨x, h1⟩, h2⟩ := ih
    obtain ⟨⟨y, h3⟩, h4⟩ := hm.kept (hl.mics h)
    refine ⟨⟨x ++ y, by rw [h1, h3, List.append_assoc]⟩, fun i hi => ?_⟩
    rw [h4 i hi]
    exact h2 i (by rw [h3]; simp [hi])

/-- An access to what only the connection's own goroutine has, or to something new. -/
inductive OwnCell (k k' : Conn) : Cell → Prop
  | list (i : Nat) (h : i ∈ k.subList) : OwnCell k k' (.sub ⟨k.me, i⟩)
  | newSub (i : Nat) (h : k.heap.length ≤ i) (h' : i < k'.heap.length) : OwnCell k k' (.sub ⟨k.me, i⟩)
  | newFrame (n : Nat) (h : k.sent ≤ n) (h' : n < k'.sent) : OwnCell k k' (.frame ⟨k.me, n⟩)

/-- An access to the head of the `subChannel`. -/
inductive HeadCell (k : Conn) (i : Nat) : Cell → Prop
  | sub : HeadCell k i (.sub ⟨k.me, i⟩)
  | frame (m : Msg) (h : (deref k.heap i).frame = some m) : HeadCell k i (.frame m.tag)

/-- Does the event of the connection receive from the `subChannel`? -/
def takes (k : Conn) : Conn.Ev → Bool
  | .sub _ => true
  | .clean => decide (k.stage = .drain1 ∨ k.stage = .drain2)
  | _ => false

theorem listCells_own {k k' : Conn} {a : Cell × Bool} (h : a ∈ listCells k) : OwnCell k k' a.1 := by
  unfold listCells at h
  obtain ⟨i, hi, rfl⟩ := List.mem_map.1 h
  exact OwnCell.list i hi

theorem headCells_head {k : Conn} {i : Nat} {l : List Nat} {a : Cell × Bool} (hl : k.subCh = i :: l) (h : a ∈ headCells k) : HeadCell k i a.1 := by
  unfold headCells at h
  rw [hl] at h
  dsimp only at h
  rcases List.mem_cons.1 h with rfl | h
  · exact HeadCell.sub
  · unfold frameCell at h
    cases hf : (deref k.heap i).frame with
    | none => rw [hf] at h; simp at h
    | some m =>
      rw [hf] at h
      simp only [List.mem_singleton] at h
      subst h
      exact HeadCell.frame m hf

theorem frame_own {k k' : Conn} {ok1 ok2 : Bool} {a : Cell × Bool} (h : a ∈ connAccesses k (.frame ok1 ok2) k') : OwnCell k k' a.1 := by
  unfold connAccesses at h
  dsimp only at h
  rcases List.mem_append.1 h with h | h
  · rcases List.mem_append.1 h with h | h
    · exact listCells_own h
    · obtain ⟨i, hi, rfl⟩ := List.mem_map.1 h
      have := List.mem_range'_1.1 hi
      exact OwnCell.newSub i this.1 (by omega)
  · obtain ⟨i, hi, rfl⟩ := List.mem_map.1 h
    have := List.mem_range'_1.1 hi
    exact OwnCell.newFrame i this.1 (by omega)

/-- A step of a connection either leaves the `subChannel` alone or receives its head. -/
theorem conn_shape {cfg : Config} {k k' : Conn} {e : Conn.Ev} (hg : Gate cfg k) (hi : Sys.internal e = true) (h : Step cfg k e k') :
    (k'.subCh = k.subCh ∧ (takes k e = true → k.subCh = []) ∧ ∀ a ∈ connAccesses k e k', OwnCell k k' a.1) ∨
    ∃ i, k.subCh = i :: k'.subCh ∧ takes k e = true ∧ ∀ a ∈ connAccesses k e k', HeadCell k i a.1 := by
  cases h with
  | recv => exact Or.inl ⟨rfl, by simp [takes], by simp [connAccesses]⟩
  | readErr => exact Or.inl ⟨rfl, by simp [takes], by simp [connAccesses]⟩
  | frame ok1 ok2 f q c1 _ f' r ha hq hsf hfin =>
    refine Or.inl ⟨?_, by simp [takes], fun a ha => frame_own ha⟩
    rcases frame_cases hg hsf hfin with ⟨_, v, cx, cy, _, ⟨_, rfl⟩ | ⟨_, rfl⟩⟩ | ⟨_, _, e, v, ⟨_, rfl⟩ | ⟨_, rfl⟩⟩ | ⟨_, hh', hf⟩
    · rfl
    · rfl
    · rfl
    · rfl
    · have h1 := hh'.keeps.subCh
      cases hf <;> exact h1
  | readClosed => exact Or.inl ⟨rfl, by simp [takes], by simp [connAccesses]⟩
  | wrOk => exact Or.inl ⟨rfl, by simp [takes], by simp [connAccesses]⟩
  | wrErr => exact Or.inl ⟨rfl, by simp [takes], by simp [connAccesses]⟩
  | wrFail => exact Or.inl ⟨rfl, by simp [takes], by simp [connAccesses]⟩
  | subGone ok i l _ hl => exact Or.inr ⟨i, hl, rfl, fun a ha => headCells_head hl ha⟩
  | subNil ok i l _ _ hl => exact Or.inr ⟨i, hl, rfl, fun a ha => headCells_head hl ha⟩
  | subFail ok i l _ _ _ hl => exact Or.inr ⟨i, hl, rfl, fun a ha => headCells_head hl ha⟩
  | subAuto i l _ _ _ hl => exact Or.inr ⟨i, hl, rfl, fun a ha => headCells_head hl ha⟩
  | subPanic i l _ _ _ hl => exact Or.inr ⟨i, hl, rfl, fun a ha => headCells_head hl ha⟩
  | subAdd i l _ _ _ hl => exact Or.inr ⟨i, hl, rfl, fun a ha => headCells_head hl ha⟩
  | timerOk => exact Or.inl ⟨rfl, by simp [takes], by simp [connAccesses]⟩
  | timerFail => exact Or.inl ⟨rfl, by simp [takes], by simp [connAccesses]⟩
  | discard m w ho hs hw =>
    refine Or.inl ⟨rfl, ?_, ?_⟩
    · rcases hs with hs | hs | hs <;> simp [takes, hs]
    · rcases hs with hs | hs | hs <;> simp [connAccesses, hs]
  | discardEnd st ho hw hs =>
    refine Or.inl ⟨rfl, ?_, ?_⟩
    · rcases hs with ⟨hs, _⟩ | ⟨hs, _⟩ | ⟨hs, _⟩ <;> simp [takes, hs]
    · rcases hs with ⟨hs, _⟩ | ⟨hs, _⟩ | ⟨hs, _⟩ <;> simp [connAccesses, hs]
  | acklist ho hs =>
    refine Or.inl ⟨rfl, by simp [takes, hs], ?_⟩
    intro a ha
    simp only [connAccesses, hs] at ha
    exact listCells_own ha
  | drain i l ho hs hl =>
    refine Or.inr ⟨i, hl, by simpa [takes] using hs, ?_⟩
    intro a ha
    rcases hs with hs | hs <;> (simp only [connAccesses, hs] at ha; exact headCells_head hl ha)
  | drainEnd st ho hl hs =>
    refine Or.inl ⟨rfl, fun _ => hl, ?_⟩
    have : headCells k = [] := by unfold headCells; rw [hl]
    rcases hs with ⟨hs, _⟩ | ⟨hs, _⟩ <;> simp [connAccesses, hs, this]
  | announce ho hs => exact Or.inl ⟨rfl, by simp [takes, hs], by simp [connAccesses, hs]⟩
  | unsub => exact Or.inl ⟨rfl, by simp [takes], by simp [connAccesses]⟩
  | flushed => cases hi
  | setFrame => cases hi
  | setInList => cases hi
  | pushSub => cases hi
  | pushTopic => cases hi

end Stomp.Server
