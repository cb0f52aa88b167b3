import Verif.Proofs.Server.RaceRun
import Verif.Proofs.Server.Places
/-! # What changes in a step is among its accesses -/
namespace Stomp.Server
open Stomp

theorem Mic.touched {a b : Core} (hl : Loc a) (hm : Mic a b) (i : Nat) :
    (i < a.heap.length → deref b.heap i = deref a.heap i ∨ i ∈ a.subList ∨ (i ∈ a.subCh ∧ i ∉ b.subCh)) ∧
    (i ∈ b.subList → i ∈ a.subList ∨ (i ∈ a.subCh ∧ i ∉ b.subCh)) := by
  have inHead : ∀ {i l}, a.subCh = i :: l → i ∈ a.subCh ∧ i ∉ l := by
    intro i l h
    refine ⟨by rw [h]; simp, fun hj => ?_⟩
    have h1 := hl.tok i
    unfold Core.tok at h1
    rw [h, List.count_cons_self] at h1
    have h2 : 0 < l.count i := List.count_pos_iff.2 hj
    omega
  cases hm with
  | dropWrite => exact ⟨fun _ => Or.inl rfl, Or.inl⟩
  | connected => exact ⟨fun _ => Or.inl rfl, Or.inl⟩
  | disconnected => exact ⟨fun _ => Or.inl rfl, Or.inl⟩
  | unsub => exact ⟨fun _ => Or.inl rfl, Or.inl⟩
  | newSub => exact ⟨fun h => Or.inl (deref_append_lt _ _ _ h), Or.inl⟩
  | send => exact ⟨fun _ => Or.inl rfl, Or.inl⟩
  | effect => exact ⟨fun _ => Or.inl rfl, Or.inl⟩
  | ack j x y m h hm =>
    refine ⟨fun _ => ?_, fun hi => Or.inl ?_⟩
    · by_cases hj : j = i
      · exact Or.inr (Or.inl (by rw [h, hj]; simp))
      · exact Or.inl (deref_putFrame_ne _ _ hj)
    · rw [h]; dsimp only at hi; simp at hi ⊢; rcases hi with hi | hi
      · exact Or.inl hi
      · exact Or.inr (Or.inr hi)
  | nack j x y m h hm =>
    refine ⟨fun _ => ?_, fun hi => Or.inl ?_⟩
    · by_cases hj : j = i
      · exact Or.inr (Or.inl (by rw [h, hj]; simp))
      · exact Or.inl (deref_putFrame_ne _ _ hj)
    · rw [h]; dsimp only at hi; simp at hi ⊢; rcases hi with hi | hi
      · exact Or.inl hi
      · exact Or.inr (Or.inr hi)
  | back => exact ⟨fun _ => Or.inl rfl, Or.inl⟩
  | lose j l m n h hm =>
    refine ⟨fun _ => ?_, Or.inl⟩
    by_cases hj : j = i
    · exact Or.inr (Or.inr (hj ▸ inHead h))
    · exact Or.inl (deref_putFrame_ne _ _ hj)
  | auto j l m h hm =>
    refine ⟨fun _ => ?_, Or.inl⟩
    by_cases hj : j = i
    · exact Or.inr (Or.inr (hj ▸ inHead h))
    · exact Or.inl (deref_putFrame_ne _ _ hj)
  | hold j l m n h hm =>
    refine ⟨fun _ => ?_, fun hi => ?_⟩
    · by_cases hj : j = i
      · exact Or.inr (Or.inr (hj ▸ inHead h))
      · left
        show deref (putInList (putFrame a.heap j _) j true) i = _
        rw [deref_putInList_ne _ _ hj, deref_putFrame_ne _ _ hj]
    · rcases List.mem_append.1 hi with hi | hi
      · exact Or.inl hi
      · rw [List.mem_singleton] at hi
        subst hi
        exact Or.inr (inHead h)
  | release j l m h hm =>
    refine ⟨fun _ => ?_, fun hi => Or.inl (by rw [h]; simp [show i ∈ l from hi])⟩
    by_cases hj : j = i
    · exact Or.inr (Or.inl (by rw [h, hj]; simp))
    · exact Or.inl (deref_putInList_ne _ _ hj)

theorem Mics.touched {a b : Core} (hl : Loc a) (hm : Mics a b) (i : Nat) :
    (i < a.heap.length → deref b.heap i = deref a.heap i ∨ i ∈ a.subList ∨ (i ∈ a.subCh ∧ i ∉ b.subCh)) ∧
    (i ∈ b.subList → i ∈ a.subList ∨ (i ∈ a.subCh ∧ i ∉ b.subCh)) := by
  induction hm with
  | refl => exact ⟨fun _ => Or.inl rfl, Or.inl⟩
  | step h hm ih =>
    rename_i b c
    obtain ⟨h1, h2⟩ := ih
    obtain ⟨h3, h4⟩ := hm.touched (hl.mics h) i
    obtain ⟨⟨x, hx⟩, _⟩ := hm.kept (hl.mics h)
    obtain ⟨⟨y, hy⟩, _⟩ := h.kept hl
    have hsub : i ∈ b.subList → i ∈ a.subList ∨ (i ∈ a.subCh ∧ i ∉ c.subCh) := by
      intro hi
      rcases h2 hi with h5 | ⟨h5, h6⟩
      · exact Or.inl h5
      · exact Or.inr ⟨h5, fun h7 => h6 (by rw [hx]; simp [h7])⟩
    have hch : i ∈ b.subCh → i ∉ c.subCh → i ∈ a.subCh ∧ i ∉ c.subCh := fun h5 h6 => ⟨by rw [hy]; simp [h5], h6⟩
    refine ⟨fun hi => ?_, fun hi => ?_⟩
    · have hi' : i < b.heap.length := Nat.lt_of_lt_of_le hi h.evol.len
      rcases h3 hi' with h5 | h5 | ⟨h5, h6⟩
      · rw [h5]
        rcases h1 hi with h7 | h7 | ⟨h7, h8⟩
        · exact Or.inl h7
        · exact Or.inr (Or.inl h7)
        · exact Or.inr (Or.inr ⟨h7, fun h9 => h8 (by rw [hx]; simp [h9])⟩)
      · exact Or.inr (hsub h5)
      · exact Or.inr (Or.inr (hch h5 h6))
    · rcases h4 hi with h5 | ⟨h5, h6⟩
      · exact hsub h5
      · exact Or.inr (hch h5 h6)

theorem Mic.same_frame {a b : Core} (hl : Loc a) (hm : Mic a b) (i : Nat) (m : Msg) (hi : i < a.heap.length) (h : (deref b.heap i).frame = some m) :
    (deref a.heap i).frame = some m ∨ (i ∈ a.subCh ∧ i ∉ b.subCh) := by
  have inHead : ∀ {i l}, a.subCh = i :: l → i ∈ a.subCh ∧ i ∉ l := by
    intro i l h
    refine ⟨by rw [h]; simp, fun hj => ?_⟩
    have h1 := hl.tok i
    unfold Core.tok at h1
    rw [h, List.count_cons_self] at h1
    have h2 : 0 < l.count i := List.count_pos_iff.2 hj
    omega
  have none : ∀ j, deref (putFrame a.heap j none) i = deref b.heap i → (deref a.heap i).frame = some m := by
    intro j hj
    rw [← hj] at h
    by_cases hji : j = i
    · subst hji
      rw [deref_putFrame, if_pos ⟨rfl, hi⟩] at h
      cases h
    · rw [deref_putFrame_ne _ _ hji] at h; exact h
  cases hm with
  | dropWrite => exact Or.inl h
  | connected => exact Or.inl h
  | disconnected => exact Or.inl h
  | unsub => exact Or.inl h
  | newSub => exact Or.inl (by rw [← deref_append_lt _ _ _ hi]; exact h)
  | send => exact Or.inl h
  | effect => exact Or.inl h
  | ack j x y m' h' hm => exact Or.inl (none j rfl)
  | nack j x y m' h' hm => exact Or.inl (none j rfl)
  | back => exact Or.inl h
  | lose j l m' n h' hm =>
    by_cases hj : j = i
    · subst hj; exact Or.inr (inHead h')
    · exact Or.inl (by rw [← deref_putFrame_ne _ _ hj]; exact h)
  | auto j l m' h' hm =>
    by_cases hj : j = i
    · subst hj; exact Or.inr (inHead h')
    · exact Or.inl (none j rfl)
  | hold j l m' n h' hm =>
    by_cases hj : j = i
    · subst hj; exact Or.inr (inHead h')
    · left
      have h2 : (deref (putInList (putFrame a.heap j _) j true) i).frame = some m := h
      rw [frame_putInList, deref_putFrame_ne _ _ hj] at h2
      exact h2
  | release j l m' h' hm =>
    left
    have h2 : (deref (putInList a.heap j false) i).frame = some m := h
    rw [frame_putInList] at h2
    exact h2

theorem Mics.same_frame {a b : Core} (hl : Loc a) (hm : Mics a b) (i : Nat) (m : Msg) (hi : i < a.heap.length) (h : (deref b.heap i).frame = some m) :
    (deref a.heap i).frame = some m ∨ (i ∈ a.subCh ∧ i ∉ b.subCh) := by
  induction hm with
  | refl => exact Or.inl h
  | step h0 hm ih =>
    rename_i b c
    obtain ⟨⟨x, hx⟩, _⟩ := hm.kept (hl.mics h0)
    obtain ⟨⟨y, hy⟩, _⟩ := h0.kept hl
    rcases hm.same_frame (hl.mics h0) i m (Nat.lt_of_lt_of_le hi h0.evol.len) h with h1 | ⟨h1, h2⟩
    · rcases ih h1 with h3 | ⟨h3, h4⟩
      · exact Or.inl h3
      · exact Or.inr ⟨h3, fun h5 => h4 (by rw [hx]; simp [h5])⟩
    · exact Or.inr ⟨by rw [hy]; simp [h1], h2⟩

theorem get_deref {h h' : List Sub} {i : Nat} (hi : i < h.length) (hi' : i < h'.length) (hd : deref h' i = deref h i) : h'[i]? = h[i]? := by
  unfold deref at hd
  rw [List.getD_eq_getElem?_getD, List.getD_eq_getElem?_getD, List.getElem?_eq_getElem hi, List.getElem?_eq_getElem hi'] at hd
  rw [List.getElem?_eq_getElem hi, List.getElem?_eq_getElem hi']
  exact congrArg some hd

theorem deref_none {h : List Sub} {i : Nat} (hi : h.length ≤ i) : (deref h i).frame = none := by
  unfold deref
  rw [List.getD_eq_getElem?_getD, List.getElem?_eq_none hi]
  rfl

theorem conn_writes {cfg : Config} {k k' : Conn} {e : Conn.Ev} (hg : Gate cfg k) (hloc : Loc k.core) (hm : Mics k.core k'.core) (hi : Sys.internal e = true)
    (h : Step cfg k e k') (i : Nat) :
    (k'.heap[i]? ≠ k.heap[i]? → (.sub ⟨k.me, i⟩, true) ∈ connAccesses k e k') ∧
    (∀ m m', (deref k.heap i).frame = some m → (deref k'.heap i).frame = some m' → m ≠ m' → (.frame m.tag, true) ∈ connAccesses k e k') := by
  have same : ∀ {k' : Conn}, k'.heap = k.heap → (k'.heap[i]? ≠ k.heap[i]? → (.sub ⟨k.me, i⟩, true) ∈ connAccesses k e k') ∧
      (∀ m m', (deref k.heap i).frame = some m → (deref k'.heap i).frame = some m' → m ≠ m' → (.frame m.tag, true) ∈ connAccesses k e k') := by
    intro k' hh
    refine ⟨fun hn => absurd (by rw [hh]) hn, fun m m' h1 h2 h3 => ?_⟩
    rw [hh, h1] at h2
    injection h2 with h2
    exact absurd h2 h3
  have head : ∀ {k' : Conn} {j : Nat} {l : List Nat}, k.subCh = j :: l → (∀ x, j ≠ x → k'.heap[x]? = k.heap[x]?) → connAccesses k e k' = headCells k →
      (k'.heap[i]? ≠ k.heap[i]? → (.sub ⟨k.me, i⟩, true) ∈ connAccesses k e k') ∧
      (∀ m m', (deref k.heap i).frame = some m → (deref k'.heap i).frame = some m' → m ≠ m' → (.frame m.tag, true) ∈ connAccesses k e k') := by
    intro k' j l hl hx hc
    rw [hc]
    unfold headCells
    rw [hl]
    dsimp only
    by_cases hj : j = i
    · subst hj
      refine ⟨fun _ => by simp, fun m m' h1 _ _ => ?_⟩
      unfold frameCell
      rw [h1]
      simp
    · refine ⟨fun hn => absurd (hx i hj) hn, fun m m' h1 h2 h3 => ?_⟩
      unfold deref at h1 h2
      rw [List.getD_eq_getElem?_getD, hx i hj, ← List.getD_eq_getElem?_getD, h1] at h2
      injection h2 with h2
      exact absurd h2 h3
  have hput : ∀ (heap : List Sub) (j : Nat) (f : Option Msg) x, j ≠ x → (putFrame heap j f)[x]? = heap[x]? := by
    intro heap j f x hjx
    unfold putFrame
    rw [List.getElem?_modify]
    simp only [hjx, if_false]
    exact Option.map_id_apply
  have hlist : ∀ (heap : List Sub) (j : Nat) (b : Bool) x, j ≠ x → (putInList heap j b)[x]? = heap[x]? := by
    intro heap j b x hjx
    unfold putInList
    rw [List.getElem?_modify]
    simp only [hjx, if_false]
    exact Option.map_id_apply
  cases h with
  | frame ok1 ok2 f q c1 _ f' r ha hq hsf hfin =>
    have hsh : k'.subCh = k.subCh := by
      rcases frame_cases hg hsf hfin with ⟨_, v, cx, cy, _, ⟨_, rfl⟩ | ⟨_, rfl⟩⟩ | ⟨_, _, e, v, ⟨_, rfl⟩ | ⟨_, rfl⟩⟩ | ⟨_, hh', hf⟩
      · rfl
      · rfl
      · rfl
      · rfl
      · have h1 := hh'.keeps.subCh
        cases hf <;> exact h1
    have hlen := hm.evol.len
    have htake : i ∈ k.core.subCh → i ∉ k'.core.subCh → False := by
      intro h1 h2
      have h3 : k'.core.subCh = k.core.subCh := hsh
      rw [h3] at h2
      exact h2 h1
    refine ⟨fun hn => ?_, fun m m' h1 h2 h3 => ?_⟩
    · by_cases hlt : i < k.heap.length
      · have h3 := hn
        rcases (hm.touched hloc i).1 hlt with h1 | h1 | ⟨h1, h2⟩
        · exact absurd (get_deref hlt (Nat.lt_of_lt_of_le hlt hlen) h1) hn
        · have h4 : i ∈ k.subList := h1
          simp [connAccesses, listCells, h4]
        · exact (htake h1 h2).elim
      · have hlt' : i < k'.heap.length := by
          apply Classical.byContradiction
          intro h4
          exact hn (by rw [List.getElem?_eq_none (by omega), List.getElem?_eq_none (by omega)])
        refine List.mem_append_left _ (List.mem_append_right _ (List.mem_map.2 ⟨i, ?_, rfl⟩))
        rw [List.mem_range'_1]
        omega
    · by_cases hlt : i < k.heap.length
      · rcases hm.same_frame hloc i m' hlt h2 with h4 | ⟨h4, h5⟩
        · have h5 : (deref k.heap i).frame = some m' := h4
          rw [h1] at h5
          injection h5 with h5
          exact absurd h5 h3
        · exact (htake h4 h5).elim
      · rw [deref_none (by omega)] at h1; cases h1
  | recv => exact same rfl
  | readErr => exact same rfl
  | readClosed => exact same rfl
  | wrOk => exact same rfl
  | wrErr => exact same rfl
  | wrFail => exact same rfl
  | subGone ok j l _ hl => exact same rfl
  | subNil ok j l _ _ hl => exact same rfl
  | subFail ok j l _ _ _ hl => exact head hl (hput _ _ _) rfl
  | subAuto j l _ _ _ hl => exact head hl (fun x hx => by show (putFrame (putFrame k.heap j _) j none)[x]? = _; rw [hput _ _ _ _ hx, hput _ _ _ _ hx]) rfl
  | subPanic j l _ _ _ hl => exact head hl (hput _ _ _) rfl
  | subAdd j l _ _ _ hl => exact head hl (fun x hx => by show (putInList (putFrame k.heap j _) j true)[x]? = _; rw [hlist _ _ _ _ hx, hput _ _ _ _ hx]) rfl
  | timerOk => exact same rfl
  | timerFail => exact same rfl
  | discard m w ho hs hw => exact same rfl
  | discardEnd st ho hw hs => exact same rfl
  | acklist ho hs =>
    refine ⟨fun hn => ?_, fun m m' h1 h2 h3 => ?_⟩
    · have hmem : i ∈ k.subList := by
        apply Classical.byContradiction
        intro hni
        apply hn
        show (k.subList.foldl (fun h i => putInList h i false) k.heap)[i]? = k.heap[i]?
        have : ∀ (l : List Nat) (heap : List Sub), i ∉ l → (l.foldl (fun h i => putInList h i false) heap)[i]? = heap[i]? := by
          intro l
          induction l with
          | nil => intro heap _; rfl
          | cons j l ih =>
            intro heap hnl
            rw [List.foldl_cons, ih _ (fun h => hnl (List.mem_cons_of_mem _ h)), hlist _ _ _ _ (fun h => hnl (by rw [h]; simp))]
        exact this _ _ hni
      simp only [connAccesses, hs, listCells]
      exact List.mem_map.2 ⟨i, hmem, rfl⟩
    · have h4 : (deref (k.subList.foldl (fun h j => putInList h j false) k.heap) i).frame = some m' := h2
      rw [foldl_frame] at h4
      rw [h1] at h4
      injection h4 with h4
      exact absurd h4 h3
  | drain j l ho hs hl => exact same rfl
  | drainEnd st ho hl hs => exact same rfl
  | announce ho hs => exact same rfl
  | unsub => exact same rfl
  | flushed => cases hi
  | setFrame => cases hi
  | setInList => cases hi
  | pushSub => cases hi
  | pushTopic => cases hi


/-- What a step changes is accessed in it. -/
def Covered (s : Sys) (e : Sys.Ev) (s' : Sys) (r : SubRef) : Prop :=
  (look s'.conns r ≠ look s.conns r → (.sub r, true) ∈ accesses s e s') ∧
  (∀ y y' m m', look s.conns r = some y → look s'.conns r = some y' → y.frame = some m → y'.frame = some m' → m ≠ m' → (.frame m.tag, true) ∈ accesses s e s')

theorem covered_same {s s' : Sys} {e : Sys.Ev} {r : SubRef} (h : look s'.conns r = look s.conns r) : Covered s e s' r := by
  refine ⟨fun hn => absurd h hn, fun y y' m m' h1 h2 h3 h4 h5 => ?_⟩
  rw [h, h1] at h2
  injection h2 with h2
  rw [← h2, h3] at h4
  injection h4 with h4
  exact absurd h4 h5

theorem covered_one {s s' : Sys} {e : Sys.Ev} {r0 : SubRef} {k : Conn} {g : List Sub} (hk : s.conns[r0.conn]? = some k)
    (hc : s'.conns = s.conns.set r0.conn { k with heap := g }) (hg : ∀ i, r0.idx ≠ i → g[i]? = k.heap[i]?)
    (hf : (deref k.heap r0.idx).frame = none ∨ (deref g r0.idx).frame = (deref k.heap r0.idx).frame) (ha : (.sub r0, true) ∈ accesses s e s') (r : SubRef) : Covered s e s' r := by
  by_cases hr : r0 = r
  · subst hr
    refine ⟨fun _ => ha, fun y y' m m' h1 h2 h3 h4 h5 => ?_⟩
    obtain ⟨k1, hk1, _, hd1⟩ := look_some h1
    rw [hk] at hk1; injection hk1 with hk1; subst hk1
    obtain ⟨k2, hk2, _, hd2⟩ := look_some h2
    rw [hc, get_set hk, if_pos rfl] at hk2; injection hk2 with hk2; subst hk2
    rw [← hd1] at h3
    rw [← hd2] at h4
    rcases hf with hf | hf
    · rw [hf] at h3; cases h3
    · have h6 : (deref g r0.idx).frame = some m' := h4
      rw [hf, h3] at h6
      injection h6 with h6
      exact absurd h6 h5
  · apply covered_same
    rw [hc, look_set hk]
    split
    · rename_i hrc
      have hi : r0.idx ≠ r.idx := by
        intro hi
        apply hr
        cases r0; cases r
        dsimp only at hrc hi
        rw [hrc, hi]
      show g[r.idx]? = _
      rw [hg _ hi]
      unfold look
      rw [← hrc, hk]
      rfl
    · rfl

theorem putFrame_get {heap : List Sub} {j : Nat} {f : Option Msg} {x : Nat} (hjx : j ≠ x) : (putFrame heap j f)[x]? = heap[x]? := by
  unfold putFrame
  rw [List.getElem?_modify]
  simp only [hjx, if_false]
  exact Option.map_id_apply

theorem putInList_get {heap : List Sub} {j : Nat} {b : Bool} {x : Nat} (hjx : j ≠ x) : (putInList heap j b)[x]? = heap[x]? := by
  unfold putInList
  rw [List.getElem?_modify]
  simp only [hjx, if_false]
  exact Option.map_id_apply

theorem acc_proc {s s' : Sys} {q : Req} {rs : List Req} (h : s.reqCh = q :: rs) : accesses s .proc s' = procAccesses s q := by
  unfold accesses
  dsimp only
  rw [h]

theorem step_writes {cfg : Config} {s s' : Sys} {e : Sys.Ev} (hI : SInv cfg s) (h : SysStep cfg s e s') (r : SubRef) : Covered s e s' r := by
  cases h with
  | accept =>
    apply covered_same
    dsimp only
    unfold look
    by_cases hlt : r.conn < s.conns.length
    · rw [List.getElem?_append_left hlt]
    · rw [List.getElem?_append_right (by omega), List.getElem?_eq_none (l := s.conns) (by omega)]
      cases r.conn - s.conns.length with
      | zero => simp [Conn.init]
      | succ n => simp
  | conn c e k k' hk hi hs =>
    have hme : k.me = c := run_me hI hk
    obtain ⟨es, hes⟩ := hI.run c k hk
    have hw := conn_writes (gate_run cfg c es k hes) (hI.loc c k hk) (mics_conn hI hk hi hs) hi (step_of _ _ _ _ hs) r.idx
    have hacc : accesses s (.conn c e) { s with conns := s.conns.set c k' } = connAccesses k e k' := by
      unfold accesses
      dsimp only
      rw [Sys.conn_eq hk, Sys.conn_eq (s := { s with conns := s.conns.set c k' }) (k := k') (by dsimp only; rw [get_set hk, if_pos rfl])]
    by_cases hc : c = r.conn
    · subst hc
      have e1 : look s.conns r = k.heap[r.idx]? := by unfold look; rw [hk]; rfl
      have e2 : look (s.conns.set r.conn k') r = k'.heap[r.idx]? := by rw [look_set hk, if_pos rfl]
      have e3 : (⟨k.me, r.idx⟩ : SubRef) = r := by rw [hme]
      rw [e3] at hw
      refine ⟨fun hn => ?_, fun y y' m m' h1 h2 h3 h4 h5 => ?_⟩
      · rw [hacc]
        dsimp only at hn
        rw [e1, e2] at hn
        exact hw.1 hn
      · rw [hacc]
        dsimp only at h2
        rw [e1] at h1
        rw [e2] at h2
        refine hw.2 m m' ?_ ?_ h5
        · unfold deref; rw [List.getD_eq_getElem?_getD, h1]; exact h3
        · unfold deref; rw [List.getD_eq_getElem?_getD, h2]; exact h4
    · apply covered_same
      dsimp only
      rw [look_set hk, if_neg hc]
  | flush c k q o hk ho hc => exact covered_same (look_heap (k' := { k with outbox := o }) hk rfl)
  | skip => exact covered_same rfl
  | joinTopic => exact covered_same rfl
  | wait r0 rs k dest ht hr hk hidx hd hq he hl =>
    refine covered_one hk rfl (fun i hi => putInList_get hi) (Or.inr (frame_putInList _ _ _ _)) ?_ r
    rw [acc_proc hr]; simp [procAccesses]
  | take r0 rs k dest m l ht hr hk hidx hd hq hm hfr =>
    refine covered_one hk rfl (fun i hi => putFrame_get hi) (Or.inl hfr) ?_ r
    rw [acc_proc hr]; simp [procAccesses]
  | leaveQueue r0 rs k dest ht hr hk hidx hd hq hm =>
    refine covered_one hk rfl (fun i hi => putInList_get hi) (Or.inr (frame_putInList _ _ _ _)) ?_ r
    rw [acc_proc hr]
    have : (s.sub r0).dest = dest := by unfold Sys.sub; rw [Sys.conn_eq hk]; exact hd
    simp [procAccesses, this, hm]
  | absent => exact covered_same rfl
  | leaveTopic => exact covered_same rfl
  | store => exact covered_same rfl
  | give front m rs dest r0 q k ht hr hdd hq he hk hidx hfr =>
    refine covered_one hk rfl (fun i hi => by rw [putFrame_get hi, putInList_get hi]) (Or.inl hfr) ?_ r
    rw [acc_proc hr]
    cases front <;> simp [putReq, procAccesses, procAccesses.putCells, hdd, he]
  | cast => exact covered_same rfl
  | drop => exact covered_same rfl
  | pushQueue r0 t k ht hk hc => exact covered_same (look_heap (k' := { k with subCh := k.subCh ++ [r0.idx] }) hk rfl)
  | pushTopic dest r0 m t k ht hk hf hc => exact covered_same (look_heap (k' := { k with writeCh := k.writeCh ++ [m.addressed (deref k.heap r0.idx).id] }) hk rfl)

theorem conn_sent {cfg : Config} {k k' : Conn} {e : Conn.Ev} (h : Step cfg k e k') (he : ∀ a b, e ≠ .frame a b) : k'.sent = k.sent := by
  cases h with
  | frame ok1 ok2 => exact absurd rfl (he ok1 ok2)
  | _ => rfl

/-- A message made in a step is written to in it. -/
theorem step_makes {cfg : Config} {s s' : Sys} {e : Sys.Ev} (hI : SInv cfg s) (h : SysStep cfg s e s') (t : Tag) (h0 : made s.conns t = 0)
    (h1 : made s'.conns t = 1) : (.frame t, true) ∈ accesses s e s' := by
  have same : made s'.conns t = made s.conns t → (.frame t, true) ∈ accesses s e s' := fun he => by omega
  have one : ∀ {c k k'}, s.conns[c]? = some k → s'.conns = s.conns.set c k' → k'.sent = k.sent → (.frame t, true) ∈ accesses s e s' :=
    fun hk hc hs => same (by rw [hc]; exact made_set hk hs t)
  cases h with
  | accept =>
    apply same
    dsimp only
    unfold made
    by_cases hlt : t.src < s.conns.length
    · rw [List.getElem?_append_left hlt]
    · rw [List.getElem?_append_right (by omega), List.getElem?_eq_none (l := s.conns) (by omega)]
      cases t.src - s.conns.length with
      | zero => simp [Conn.init]
      | succ n => simp
  | conn c e k k' hk hi hs =>
    have hme : k.me = c := run_me hI hk
    have hacc : accesses s (.conn c e) { s with conns := s.conns.set c k' } = connAccesses k e k' := by
      unfold accesses
      dsimp only
      rw [Sys.conn_eq hk, Sys.conn_eq (s := { s with conns := s.conns.set c k' }) (k := k') (by dsimp only; rw [get_set hk, if_pos rfl])]
    by_cases hf : ∃ a b, e = .frame a b
    · obtain ⟨a, b, rfl⟩ := hf
      unfold made at h0 h1
      dsimp only at h1
      rw [get_set hk] at h1
      by_cases hc : c = t.src
      · rw [if_pos hc] at h1
        rw [← hc, hk] at h0
        dsimp only at h0 h1
        have h2 : t.seq < k'.sent := by
          apply Classical.byContradiction; intro hn; rw [if_neg hn] at h1; cases h1
        have h3 : ¬t.seq < k.sent := by intro hn; rw [if_pos hn] at h0; cases h0
        rw [hacc]
        refine List.mem_append_right _ (List.mem_map.2 ⟨t.seq, ?_, ?_⟩)
        · rw [List.mem_range'_1]; omega
        · rw [hme, hc]
      · rw [if_neg hc] at h1
        omega
    · exact same (made_set hk (conn_sent (step_of _ _ _ _ hs) (fun a b he => hf ⟨a, b, he⟩)) t)
  | flush c k q o hk ho hc => exact one hk rfl rfl
  | skip => exact same rfl
  | joinTopic => exact same rfl
  | wait r0 rs k dest ht hr hk hidx hd hq he hl => exact one hk rfl rfl
  | take r0 rs k dest m l ht hr hk hidx hd hq hm hfr => exact one hk rfl rfl
  | leaveQueue r0 rs k dest ht hr hk hidx hd hq hm => exact one hk rfl rfl
  | absent => exact same rfl
  | leaveTopic => exact same rfl
  | store => exact same rfl
  | give front m rs dest r0 q k ht hr hdd hq he hk hidx hfr => exact one hk rfl rfl
  | cast => exact same rfl
  | drop => exact same rfl
  | pushQueue r0 t' k ht hk hc => exact one hk rfl rfl
  | pushTopic dest r0 m t' k ht hk hf hc => exact one hk rfl rfl

end Stomp.Server
