import Verif.Proofs.Server.SubIds
/-! # The part of a connection that holds messages, and the elementary operations on it

Every step of a connection's own goroutines is a sequence of elementary operations (`mics_step`). -/
namespace Stomp.Server
open Stomp

/-- The part of a connection that holds messages and subscriptions. -/
structure Core where
  me : Nat
  heap : List Sub
  subCh : List Nat
  subList : List Nat
  pend : List Req
  writeCh : List Msg
  sent : Nat
  effective : List Frame
  acked : List Tag
  autoDone : List Tag
  lost : List Tag

/-- The core of a connection. -/
def Conn.core (c : Conn) : Core :=
  ⟨c.me, c.heap, c.subCh, c.subList, pending c.outbox, c.writeCh, c.sent, c.effective, c.acked, c.autoDone, c.lost⟩

/-- Assignment `sub.frame = m`, seen from outside. -/
theorem deref_modify (heap : List Sub) (i j : Nat) (g : Sub → Sub) :
    deref (heap.modify i g) j = if i = j ∧ j < heap.length then g (deref heap j) else deref heap j := by
  unfold deref
  rw [List.getD_eq_getElem?_getD, List.getD_eq_getElem?_getD, List.getElem?_modify]
  by_cases hij : i = j
  · subst hij
    by_cases hl : i < heap.length
    · simp [hl]
    · have h0 : heap[i]? = none := by rw [List.getElem?_eq_none_iff]; omega
      rw [if_neg (fun e => hl e.2), h0]
      rfl
  · simp [hij]

theorem deref_ge (heap : List Sub) (i : Nat) (h : heap.length ≤ i) : deref heap i = default := by
  unfold deref
  rw [List.getD_eq_getElem?_getD, List.getElem?_eq_none h]
  rfl

theorem deref_append_lt (a b : List Sub) (i : Nat) (h : i < a.length) : deref (a ++ b) i = deref a i := by
  unfold deref
  rw [List.getD_eq_getElem?_getD, List.getD_eq_getElem?_getD, List.getElem?_append_left h]

theorem deref_append_eq (a : List Sub) (x : Sub) : deref (a ++ [x]) a.length = x := by
  unfold deref
  rw [List.getD_eq_getElem?_getD]
  simp

/-- Elementary operations. -/
inductive Mic (a : Core) : Core → Prop
  | dropWrite (m : Msg) (w : List Msg) (h : a.writeCh = m :: w) : Mic a { a with writeCh := w }
  | connected : Mic a { a with pend := a.pend ++ [.connected a.me] }
  | disconnected : Mic a { a with pend := a.pend ++ [.disconnected a.me] }
  | unsub (i : Nat) (h : i < a.heap.length) : Mic a { a with pend := a.pend ++ [.unsubscribe ⟨a.me, i⟩] }
  | newSub (dest id ack : Bytes) :
      Mic a { a with heap := a.heap ++ [newSubscription dest id ack], pend := a.pend ++ [.subscribe ⟨a.me, a.heap.length⟩] }
  | send (f : Frame) (h : f.command = Cmd.send) :
      Mic a { a with sent := a.sent + 1, effective := a.effective ++ [f],
                     pend := a.pend ++ [.enqueue ⟨⟨a.me, a.sent⟩, { f with command := Cmd.message }⟩] }
  | effect (f : Frame) (h : f.command ≠ Cmd.send) : Mic a { a with effective := a.effective ++ [f] }
  | ack (i : Nat) (x y : List Nat) (m : Msg) (h : a.subList = x ++ i :: y) (hm : (deref a.heap i).frame = some m) :
      Mic a { a with subList := x ++ y, heap := putFrame a.heap i none, acked := a.acked ++ [m.tag],
                     pend := a.pend ++ [.subscribe ⟨a.me, i⟩] }
  | nack (i : Nat) (x y : List Nat) (m : Msg) (h : a.subList = x ++ i :: y) (hm : (deref a.heap i).frame = some m) :
      Mic a { a with subList := x ++ y, heap := putFrame a.heap i none,
                     pend := a.pend ++ [.requeue (some m), .subscribe ⟨a.me, i⟩] }
  | back (i : Nat) (l : List Nat) (m : Msg) (h : a.subCh = i :: l) (hm : (deref a.heap i).frame = some m) :
      Mic a { a with subCh := l, pend := a.pend ++ [.requeue (some m)] }
  | lose (i : Nat) (l : List Nat) (m : Msg) (n : Nat) (h : a.subCh = i :: l) (hm : (deref a.heap i).frame = some m) :
      Mic a { a with subCh := l, heap := putFrame a.heap i (some (m.alloc n (some (deref a.heap i).ack))), lost := a.lost ++ [m.tag] }
  | auto (i : Nat) (l : List Nat) (m : Msg) (h : a.subCh = i :: l) (hm : (deref a.heap i).frame = some m) :
      Mic a { a with subCh := l, heap := putFrame a.heap i none, autoDone := a.autoDone ++ [m.tag],
                     pend := a.pend ++ [.subscribe ⟨a.me, i⟩] }
  | hold (i : Nat) (l : List Nat) (m : Msg) (n : Nat) (h : a.subCh = i :: l) (hm : (deref a.heap i).frame = some m) :
      Mic a { a with subCh := l, subList := a.subList ++ [i],
                     heap := putInList (putFrame a.heap i (some (m.alloc n (some (deref a.heap i).ack)))) i true }
  | release (i : Nat) (l : List Nat) (m : Msg) (h : a.subList = i :: l) (hm : (deref a.heap i).frame = some m) :
      Mic a { a with subList := l, heap := putInList a.heap i false, pend := a.pend ++ [.requeue (some m)] }

/-- Sequences of elementary operations. -/
inductive Mics : Core → Core → Prop
  | refl (a : Core) : Mics a a
  | step {a b c : Core} (h : Mics a b) (h' : Mic b c) : Mics a c

theorem Mics.trans {a b c : Core} (h : Mics a b) (h' : Mics b c) : Mics a c := by
  induction h' with
  | refl => exact h
  | step _ hm ih => exact ih.step hm

theorem Mic.one {a b : Core} (h : Mic a b) : Mics a b := (Mics.refl a).step h

/-- The subscriptions a connection asks to be put back into the queues. -/
def subIdx (l : List Req) : List Nat := l.filterMap (fun | .subscribe r => some r.idx | _ => none)

theorem subIdx_append (a b : List Req) : subIdx (a ++ b) = subIdx a ++ subIdx b := by
  unfold subIdx; rw [List.filterMap_append]

/-- How often a subscription is held by the connection. -/
def Core.tok (a : Core) (i : Nat) : Nat := a.subCh.count i + a.subList.count i + (subIdx a.pend).count i

/-- Consistency of the core. -/
structure Loc (a : Core) : Prop where
  tok : ∀ i, a.tok i ≤ 1
  idx : ∀ i, 0 < a.tok i → i < a.heap.length
  full : ∀ i, i ∈ a.subCh ∨ i ∈ a.subList → (deref a.heap i).frame.isSome
  empty : ∀ i, i ∈ subIdx a.pend → (deref a.heap i).frame = none
  refs : ∀ r, .subscribe r ∈ a.pend ∨ .unsubscribe r ∈ a.pend → r.conn = a.me ∧ r.idx < a.heap.length
  nil : .requeue none ∉ a.pend

theorem Loc.disjoint {a : Core} (h : Loc a) {i : Nat} (hi : 0 < a.tok i) (n1 n2 n3 : Nat) (h1 : a.subCh.count i = n1)
    (h2 : a.subList.count i = n2) (h3 : (subIdx a.pend).count i = n3) : n1 + n2 + n3 = 1 := by
  have := h.tok i
  unfold Core.tok at this hi
  omega

theorem count_pos_iff {l : List Nat} {i : Nat} : 0 < l.count i ↔ i ∈ l := List.count_pos_iff

theorem count_cons' (l : List Nat) (i j : Nat) : (j :: l).count i = l.count i + (if j = i then 1 else 0) := by
  rw [List.count_cons]; by_cases h : j = i <;> simp [h]

theorem count_mid (x y : List Nat) (i j : Nat) : (x ++ j :: y).count i = (x ++ y).count i + (if j = i then 1 else 0) := by
  rw [List.count_append, List.count_append, count_cons']; omega

theorem count_snoc (l : List Nat) (i j : Nat) : (l ++ [j]).count i = l.count i + (if j = i then 1 else 0) := by
  rw [List.count_append, count_cons']; simp

theorem subIdx_snoc (l : List Req) (r : Req) (i : Nat) :
    (subIdx (l ++ [r])).count i = (subIdx l).count i + (match r with | .subscribe x => if x.idx = i then 1 else 0 | _ => 0) := by
  rw [subIdx_append, List.count_append]
  congr 1
  cases r <;> simp [subIdx, count_cons']

theorem putFrame_length (heap : List Sub) (i : Nat) (m : Option Msg) : (putFrame heap i m).length = heap.length := by
  unfold putFrame; rw [List.length_modify]

theorem putInList_length (heap : List Sub) (i : Nat) (b : Bool) : (putInList heap i b).length = heap.length := by
  unfold putInList; rw [List.length_modify]

theorem deref_putFrame (heap : List Sub) (i j : Nat) (m : Option Msg) :
    deref (putFrame heap i m) j = if i = j ∧ j < heap.length then { deref heap j with frame := m } else deref heap j :=
  deref_modify heap i j _

theorem deref_putInList (heap : List Sub) (i j : Nat) (b : Bool) :
    deref (putInList heap i b) j = if i = j ∧ j < heap.length then { deref heap j with inList := b } else deref heap j :=
  deref_modify heap i j _

theorem deref_putFrame_ne (heap : List Sub) {i j : Nat} (m : Option Msg) (h : i ≠ j) : deref (putFrame heap i m) j = deref heap j := by
  rw [deref_putFrame, if_neg (fun e => h e.1)]

theorem deref_putInList_ne (heap : List Sub) {i j : Nat} (b : Bool) (h : i ≠ j) : deref (putInList heap i b) j = deref heap j := by
  rw [deref_putInList, if_neg (fun e => h e.1)]

theorem frame_putInList (heap : List Sub) (i j : Nat) (b : Bool) : (deref (putInList heap i b) j).frame = (deref heap j).frame := by
  rw [deref_putInList]; split <;> rfl

theorem frame_putFrame_eq (heap : List Sub) (i : Nat) (m : Option Msg) (h : i < heap.length) : (deref (putFrame heap i m) i).frame = m := by
  rw [deref_putFrame, if_pos ⟨rfl, h⟩]

theorem lt_of_frame {heap : List Sub} {i : Nat} {m : Msg} (h : (deref heap i).frame = some m) : i < heap.length := by
  by_cases hl : i < heap.length
  · exact hl
  · rw [deref_ge heap i (by omega)] at h; cases h

theorem mem_append_one {α : Type} {l : List α} {x y : α} : x ∈ l ++ [y] ↔ x ∈ l ∨ x = y := by simp

/-- Adding a request that is not about a subscription. -/
theorem Loc.pend {a : Core} (h : Loc a) (r : Req) (h1 : ∀ x, r ≠ .subscribe x) (h2 : r ≠ .requeue none)
    (h3 : ∀ x, r = .unsubscribe x → x.conn = a.me ∧ x.idx < a.heap.length) : Loc { a with pend := a.pend ++ [r] } := by
  have e : subIdx (a.pend ++ [r]) = subIdx a.pend := by
    rw [subIdx_append]
    cases r with
    | subscribe x => exact absurd rfl (h1 x)
    | _ => simp [subIdx]
  refine ⟨?_, ?_, h.full, ?_, ?_, ?_⟩
  · intro i; unfold Core.tok; rw [e]; exact h.tok i
  · intro i; unfold Core.tok; rw [e]; exact h.idx i
  · intro i; dsimp only; rw [e]; exact h.empty i
  · intro x hx
    dsimp only at hx
    rw [mem_append_one, mem_append_one] at hx
    rcases hx with (hx | hx) | (hx | hx)
    · exact h.refs x (Or.inl hx)
    · exact absurd hx.symm (h1 x)
    · exact h.refs x (Or.inr hx)
    · exact h3 x hx.symm
  · dsimp only; rw [mem_append_one]; rintro (hx | hx)
    · exact h.nil hx
    · exact h2 hx.symm

theorem Loc.of_heap {a : Core} (h : Loc a) (heap : List Sub) (hl : heap.length = a.heap.length)
    (hf : ∀ i, (deref heap i).frame = (deref a.heap i).frame) : Loc { a with heap := heap } := by
  refine ⟨h.tok, ?_, ?_, ?_, ?_, h.nil⟩
  · intro i hi; dsimp only; rw [hl]; exact h.idx i hi
  · intro i hi; dsimp only; rw [hf]; exact h.full i hi
  · intro i hi; dsimp only; rw [hf]; exact h.empty i hi
  · intro r hr; dsimp only; rw [hl]; exact h.refs r hr

/-- A subscription held with a frame gives it up and is put back. -/
theorem Loc.resub {a : Core} (h : Loc a) (i : Nat) (ch li : List Nat) (hi : i < a.heap.length)
    (hc : ∀ j, ch.count j + li.count j + (if i = j then 1 else 0) = a.subCh.count j + a.subList.count j) :
    Loc { a with subCh := ch, subList := li, heap := putFrame a.heap i none, pend := a.pend ++ [.subscribe ⟨a.me, i⟩] } := by
  have ht : ∀ j, ch.count j + li.count j + ((subIdx a.pend).count j + if i = j then 1 else 0) = a.tok j := by
    intro j; have := hc j; unfold Core.tok; omega
  refine ⟨?_, ?_, ?_, ?_, ?_, ?_⟩
  · intro j; unfold Core.tok; dsimp only; rw [subIdx_snoc]; dsimp only; rw [ht j]; exact h.tok j
  · intro j; unfold Core.tok; dsimp only; rw [subIdx_snoc, putFrame_length]; dsimp only; rw [ht j]; exact h.idx j
  · intro j hj
    dsimp only at hj ⊢
    have hne : i ≠ j := by
      rintro rfl
      have h1 := h.tok i
      rw [← ht i, if_pos rfl] at h1
      have h2 : 0 < ch.count i + li.count i := by
        rcases hj with hj | hj
        · have := count_pos_iff.2 hj; omega
        · have := count_pos_iff.2 hj; omega
      omega
    rw [deref_putFrame_ne _ _ hne]
    apply h.full
    have := hc j
    rw [if_neg hne] at this
    have h2 : 0 < ch.count j + li.count j := by
      rcases hj with hj | hj
      · have := count_pos_iff.2 hj; omega
      · have := count_pos_iff.2 hj; omega
    by_cases h3 : 0 < a.subCh.count j
    · exact Or.inl (count_pos_iff.1 h3)
    · exact Or.inr (count_pos_iff.1 (by omega))
  · intro j hj
    dsimp only at hj ⊢
    rw [deref_putFrame]
    split
    · rfl
    · rename_i hne
      apply h.empty
      rw [← count_pos_iff, subIdx_snoc] at hj
      dsimp only at hj
      by_cases hij : i = j
      · subst hij; exact absurd ⟨rfl, hi⟩ hne
      · rw [if_neg hij] at hj; exact count_pos_iff.1 hj
  · intro r hr
    dsimp only at hr ⊢
    rw [putFrame_length]
    rw [mem_append_one, mem_append_one] at hr
    rcases hr with (hr | hr) | (hr | hr)
    · exact h.refs r (Or.inl hr)
    · injection hr with hr; subst hr; exact ⟨rfl, hi⟩
    · exact h.refs r (Or.inr hr)
    · cases hr
  · dsimp only; rw [mem_append_one]; rintro (hx | hx)
    · exact h.nil hx
    · cases hx

/-- A subscription is let go. -/
theorem Loc.letgo {a : Core} (h : Loc a) (ch li : List Nat) (hc : ∀ j, ch.count j + li.count j ≤ a.subCh.count j + a.subList.count j) :
    Loc { a with subCh := ch, subList := li } := by
  have ht : ∀ j, ch.count j + li.count j + (subIdx a.pend).count j ≤ a.tok j := by
    intro j; have := hc j; unfold Core.tok; omega
  refine ⟨?_, ?_, ?_, h.empty, h.refs, h.nil⟩
  · intro j; unfold Core.tok; dsimp only; exact Nat.le_trans (ht j) (h.tok j)
  · intro j; unfold Core.tok; dsimp only; intro hj; exact h.idx j (Nat.lt_of_lt_of_le hj (ht j))
  · intro j hj
    dsimp only at hj
    apply h.full
    have := hc j
    have h2 : 0 < ch.count j + li.count j := by
      rcases hj with hj | hj
      · have := count_pos_iff.2 hj; omega
      · have := count_pos_iff.2 hj; omega
    by_cases h3 : 0 < a.subCh.count j
    · exact Or.inl (count_pos_iff.1 h3)
    · exact Or.inr (count_pos_iff.1 (by omega))

/-- The frame of a subscription held with a frame is replaced. -/
theorem Loc.reframe {a : Core} (h : Loc a) (i : Nat) (m : Msg) (hi : i ∉ subIdx a.pend) :
    Loc { a with heap := putFrame a.heap i (some m) } := by
  refine ⟨h.tok, ?_, ?_, ?_, ?_, h.nil⟩
  · intro j hj; dsimp only; rw [putFrame_length]; exact h.idx j hj
  · intro j hj; dsimp only; rw [deref_putFrame]; split
    · rfl
    · exact h.full j hj
  · intro j hj
    dsimp only
    rw [deref_putFrame_ne]
    · exact h.empty j hj
    · rintro rfl; exact hi hj
  · intro r hr; dsimp only; rw [putFrame_length]; exact h.refs r hr

theorem Loc.not_pend {a : Core} (h : Loc a) {i : Nat} (hi : i ∈ a.subCh ∨ i ∈ a.subList) : i ∉ subIdx a.pend := by
  intro hp
  have h1 := h.tok i
  unfold Core.tok at h1
  have := count_pos_iff.2 hp
  rcases hi with hi | hi
  · have := count_pos_iff.2 hi; omega
  · have := count_pos_iff.2 hi; omega

theorem Loc.mic {a b : Core} (h : Loc a) (hm : Mic a b) : Loc b := by
  cases hm with
  | dropWrite => exact ⟨h.tok, h.idx, h.full, h.empty, h.refs, h.nil⟩
  | connected => exact h.pend _ (by simp) (by simp) (by simp)
  | disconnected => exact h.pend _ (by simp) (by simp) (by simp)
  | unsub i hi => exact h.pend _ (by simp) (by simp) (by rintro x ⟨rfl⟩; exact ⟨rfl, hi⟩)
  | newSub dest id ack =>
    have hz : a.tok a.heap.length = 0 := by
      apply Nat.eq_zero_of_not_pos
      intro hp
      exact Nat.lt_irrefl _ (h.idx _ hp)
    have hle : ∀ j, j < a.heap.length → deref (a.heap ++ [newSubscription dest id ack]) j = deref a.heap j := fun j hj => deref_append_lt _ _ _ hj
    refine ⟨?_, ?_, ?_, ?_, ?_, ?_⟩
    · intro j
      unfold Core.tok at hz ⊢
      dsimp only
      rw [subIdx_snoc]
      dsimp only
      by_cases hj : a.heap.length = j
      · subst hj; rw [if_pos rfl]; omega
      · rw [if_neg hj]; exact h.tok j
    · intro j
      unfold Core.tok
      dsimp only
      rw [subIdx_snoc, List.length_append]
      dsimp only
      by_cases hj : a.heap.length = j
      · intro _; subst hj; simp
      · rw [if_neg hj]
        intro hp
        have := h.idx j hp
        omega
    · intro j hj
      dsimp only at hj ⊢
      rw [hle j]
      · exact h.full j hj
      · apply h.idx
        unfold Core.tok
        rcases hj with hj | hj
        · have := count_pos_iff.2 hj; omega
        · have := count_pos_iff.2 hj; omega
    · intro j hj
      dsimp only at hj ⊢
      rw [← count_pos_iff, subIdx_snoc] at hj
      dsimp only at hj
      by_cases hij : a.heap.length = j
      · subst hij; rw [deref_append_eq]; rfl
      · rw [if_neg hij] at hj
        have hj := count_pos_iff.1 hj
        rw [hle j]
        · exact h.empty j hj
        · apply h.idx
          unfold Core.tok
          have := count_pos_iff.2 hj; omega
    · intro r hr
      dsimp only at hr ⊢
      rw [mem_append_one, mem_append_one] at hr
      rw [List.length_append]
      rcases hr with (hr | hr) | (hr | hr)
      · have := h.refs r (Or.inl hr); exact ⟨this.1, by omega⟩
      · injection hr with hr; subst hr; exact ⟨rfl, by simp⟩
      · have := h.refs r (Or.inr hr); exact ⟨this.1, by omega⟩
      · cases hr
    · dsimp only; rw [mem_append_one]; rintro (hx | hx)
      · exact h.nil hx
      · cases hx
  | send f hf =>
    have := h.pend (.enqueue ⟨⟨a.me, a.sent⟩, { f with command := Cmd.message }⟩) (by simp) (by simp) (by simp)
    exact ⟨this.tok, this.idx, this.full, this.empty, this.refs, this.nil⟩
  | effect => exact ⟨h.tok, h.idx, h.full, h.empty, h.refs, h.nil⟩
  | ack i x y m hl hm =>
    have := h.resub i a.subCh (x ++ y) (lt_of_frame hm) (by intro j; rw [hl, count_mid]; omega)
    exact ⟨this.tok, this.idx, this.full, this.empty, this.refs, this.nil⟩
  | nack i x y m hl hm =>
    have h0 := h.pend (.requeue (some m)) (by simp) (by simp) (by simp)
    have := h0.resub i a.subCh (x ++ y) (lt_of_frame hm) (by intro j; dsimp only; rw [hl, count_mid]; omega)
    have e : a.pend ++ [.requeue (some m), .subscribe ⟨a.me, i⟩] = a.pend ++ [.requeue (some m)] ++ [.subscribe ⟨a.me, i⟩] := by simp
    dsimp only at this
    rw [e]
    exact this
  | back i l m hl hm =>
    have h0 := h.pend (.requeue (some m)) (by simp) (by simp) (by simp)
    exact h0.letgo l a.subList (by intro j; dsimp only; rw [hl, count_cons']; omega)
  | lose i l m n hl hm =>
    have h0 := h.reframe i (m.alloc n (some (deref a.heap i).ack)) (h.not_pend (Or.inl (by rw [hl]; simp)))
    have h1 := h0.letgo l a.subList (by intro j; dsimp only; rw [hl, count_cons']; omega)
    exact ⟨h1.tok, h1.idx, h1.full, h1.empty, h1.refs, h1.nil⟩
  | auto i l m hl hm =>
    have := h.resub i l a.subList (lt_of_frame hm) (by intro j; rw [hl, count_cons']; omega)
    exact ⟨this.tok, this.idx, this.full, this.empty, this.refs, this.nil⟩
  | hold i l m n hl hm =>
    have h0 := h.reframe i (m.alloc n (some (deref a.heap i).ack)) (h.not_pend (Or.inl (by rw [hl]; simp)))
    have h1 := h0.letgo l (a.subList ++ [i]) (by intro j; dsimp only; rw [hl, count_cons', count_snoc]; omega)
    exact h1.of_heap _ (by rw [putInList_length]) (fun j => frame_putInList _ _ _ _)
  | release i l m hl hm =>
    have h0 := h.pend (.requeue (some m)) (by simp) (by simp) (by simp)
    have h1 := h0.letgo a.subCh l (by intro j; dsimp only; rw [hl, count_cons']; omega)
    exact h1.of_heap _ (by rw [putInList_length]) (fun j => frame_putInList _ _ _ _)

theorem Loc.mics {a b : Core} (h : Loc a) (hm : Mics a b) : Loc b := by
  induction hm with
  | refl => exact h
  | step _ hm ih => exact ih.mic hm

end Stomp.Server
