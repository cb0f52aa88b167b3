import Verif.Model.Memory
/-! # The reader on byte arrays does what the reader on values does, and writes only to its own arrays -/
namespace Stomp.Mem

/-! ## Arrays -/

theorem patch_length {a : Bytes} {i : Nat} {d : Bytes} (h : i + d.length ≤ a.length) :
    (patch a i d).length = a.length := by
  simp [patch]; omega

theorem patch_take {a : Bytes} {i : Nat} {d : Bytes} (h : i ≤ a.length) : (patch a i d).take i = a.take i := by
  unfold patch
  rw [List.append_assoc, List.take_append_of_le_length (by simp; omega), List.take_take, Nat.min_self]

theorem patch_drop {a : Bytes} {i : Nat} {d : Bytes} (h : i ≤ a.length) :
    ((patch a i d).drop i).take d.length = d := by
  unfold patch
  rw [List.append_assoc, List.drop_append_of_le_length (by simp; omega)]
  rw [show (a.take i).drop i = [] from List.drop_eq_nil_of_le (by simp; omega)]
  simp

/-- What is read across the end of old data and `d` written behind it. -/
theorem patch_across {a : Bytes} {r w : Nat} {d : Bytes} (hr : r ≤ w) (hw : w + d.length ≤ a.length) :
    ((patch a w d).drop r).take (w + d.length - r) = (a.drop r).take (w - r) ++ d := by
  have h1 : (patch a w d).take (w + d.length) = a.take w ++ d := by
    unfold patch
    rw [List.append_assoc, List.take_append]
    have : (a.take w).length = w := by simp; omega
    rw [this, List.take_of_length_le (by omega), show w + d.length - w = d.length by omega]
    simp
  have h2 : ((patch a w d).drop r).take (w + d.length - r) = ((patch a w d).take (w + d.length)).drop r := by
    rw [List.drop_take]
  rw [h2, h1, List.drop_append_of_le_length (by simp; omega), List.drop_take]

theorem getD_set_self {m : Mem} {a : Nat} {x : Bytes} (h : a < m.length) : (m.set a x).getD a [] = x := by
  simp [h]

theorem getD_set_ne {m : Mem} {a k : Nat} {x : Bytes} (h : k ≠ a) : (m.set a x).getD k [] = m.getD k [] := by
  simp [List.getElem?_set_ne (Ne.symm h)]

theorem store_length (m : Mem) (a i : Nat) (d : Bytes) : (store m a i d).length = m.length := by
  simp [store]

theorem load_length {m : Mem} {r : Ref} (h : r.off + r.len ≤ (m.getD r.arr []).length) : (load m r).length = r.len := by
  unfold load
  rw [List.length_take, List.length_drop]; omega

theorem load_fresh (m : Mem) (d : Bytes) : load (alloc m d) (fresh m d) = d := by
  simp [load, alloc, fresh]

theorem alloc_getD {m : Mem} {d : Bytes} {k : Nat} (h : k < m.length) : (alloc m d).getD k [] = m.getD k [] := by
  simp [alloc, List.getElem?_append_left h]

theorem load_alloc {m : Mem} {d : Bytes} {r : Ref} (h : r.arr < m.length) : load (alloc m d) r = load m r := by
  unfold load; rw [alloc_getD h]

/-- A slice of a slice. -/
theorem load_take (m : Mem) (r : Ref) (n : Nat) (h : n ≤ r.len) : load m ⟨r.arr, r.off, n⟩ = (load m r).take n := by
  unfold load
  rw [List.take_take, Nat.min_eq_left h]

theorem load_drop (m : Mem) (r : Ref) (n : Nat) :
    load m ⟨r.arr, r.off + n, r.len - n⟩ = (load m r).drop n := by
  unfold load
  rw [List.drop_take, List.drop_drop]

/-! ## What an operation leaves alone -/

/-- `m'` came from `m` without writing to any of the first `b` arrays but `a`, which keeps its length. -/
structure Kept (b a : Nat) (m m' : Mem) : Prop where
  grows : m.length ≤ m'.length
  same : ∀ k, k < b → k ≠ a → m'.getD k [] = m.getD k []
  size : (m'.getD a []).length = (m.getD a []).length

theorem Kept.refl (b a : Nat) (m : Mem) : Kept b a m m := ⟨Nat.le_refl _, fun _ _ _ => rfl, rfl⟩

theorem Kept.trans {b a : Nat} {m m' m'' : Mem} (h : Kept b a m m') (h' : Kept b a m' m'') : Kept b a m m'' :=
  ⟨Nat.le_trans h.grows h'.grows, fun k hk ha => (h'.same k hk ha).trans (h.same k hk ha), h'.size.trans h.size⟩

theorem Kept.mono {b b' a : Nat} {m m' : Mem} (h : Kept b a m m') (hb : b' ≤ b) : Kept b' a m m' :=
  ⟨h.grows, fun k hk => h.same k (by omega), h.size⟩

theorem Kept.load {b a : Nat} {m m' : Mem} (h : Kept b a m m') {r : Ref} (hb : r.arr < b) (ha : r.arr ≠ a) :
    Mem.load m' r = Mem.load m r := by
  unfold Mem.load; rw [h.same _ hb ha]

theorem kept_alloc {b a : Nat} {m : Mem} {d : Bytes} (hb : b ≤ m.length) (ha : a < m.length) :
    Kept b a m (alloc m d) :=
  ⟨by simp [alloc], fun k hk _ => alloc_getD (by omega), by rw [alloc_getD ha]⟩

theorem kept_store {b a i : Nat} {m : Mem} {d : Bytes} (ha : a < m.length)
    (h : i + d.length ≤ (m.getD a []).length) : Kept b a m (store m a i d) :=
  ⟨Nat.le_of_eq (store_length ..).symm, fun k _ hk => getD_set_ne hk, by
    unfold store; rw [getD_set_self ha, patch_length h]⟩

/-- Writing to an array beyond the first `b`. -/
theorem kept_store_new {b a p i : Nat} {m : Mem} {d : Bytes} (hp : b ≤ p) (hpa : p ≠ a) :
    Kept b a m (store m p i d) :=
  ⟨Nat.le_of_eq (store_length ..).symm, fun k hk _ => getD_set_ne (by omega), by
    unfold store; rw [getD_set_ne (Ne.symm hpa)]⟩

/-! ## The buffer -/

/-- The positions of the buffer lie in it. -/
structure Ok (m : Mem) (s : MBuf) : Prop where
  rw' : s.r ≤ s.w
  room : s.w ≤ s.size m
  there : s.arr < m.length

theorem Ok.kept {b : Nat} {m m' : Mem} {s : MBuf} (h : Ok m s) (hk : Kept b s.arr m m') : Ok m' s :=
  ⟨h.rw', by unfold MBuf.size; rw [hk.size]; exact h.room, Nat.lt_of_lt_of_le h.there hk.grows⟩

theorem Ok.unread_length {m : Mem} {s : MBuf} (h : Ok m s) : (load m s.unread).length = s.w - s.r := by
  apply load_length
  have := h.rw'; have := h.room
  simp only [MBuf.unread, MBuf.size] at *
  omega

theorem value_alloc {m : Mem} {s : MBuf} (h : Ok m s) (d : Bytes) : s.value (alloc m d) = s.value m := by
  unfold MBuf.value MBuf.size
  rw [alloc_getD h.there, load_alloc (r := s.unread) h.there]

theorem transportRead_length {n : Nat} {cs cs' : List Bytes} {d : Bytes} (h : transportRead n cs = some (d, cs')) :
    d.length ≤ n := by
  cases cs with
  | nil => simp [transportRead] at h
  | cons c cs =>
    simp only [transportRead, Option.some.injEq, Prod.mk.injEq] at h
    rw [← h.1]; simp; omega

theorem slide_spec {b : Nat} {m : Mem} {s : MBuf} (h : Ok m s) :
    Kept b s.arr m (slide m s).1 ∧ Ok (slide m s).1 (slide m s).2 ∧ (slide m s).2.arr = s.arr ∧ (slide m s).2.r = 0 ∧
      (slide m s).2.value (slide m s).1 = s.value m := by
  have hl := h.unread_length
  have h1 := h.rw'
  have h2 := h.room
  unfold slide
  by_cases hr : s.r > 0
  · rw [if_pos hr]
    have hfit : 0 + (load m s.unread).length ≤ (m.getD s.arr []).length := by
      rw [hl]; simp only [MBuf.size] at h2; omega
    have hk : Kept b s.arr m (store m s.arr 0 (load m s.unread)) := kept_store h.there hfit
    refine ⟨hk, ⟨by simp, ?_, Nat.lt_of_lt_of_le h.there hk.grows⟩, rfl, rfl, ?_⟩
    · simp only [MBuf.size] at *; rw [hk.size]; omega
    · simp only [MBuf.value, MBuf.size]
      congr 1
      · exact hk.size
      · show load _ ⟨s.arr, 0, s.w - s.r - 0⟩ = _
        rw [Nat.sub_zero]
        rw [show load (store m s.arr 0 (load m s.unread)) ⟨s.arr, 0, s.w - s.r⟩ =
          ((patch (m.getD s.arr []) 0 (load m s.unread)).drop 0).take (s.w - s.r) from by
            unfold load store; rw [getD_set_self h.there]]
        rw [← hl, patch_drop (by omega)]
  · rw [if_neg hr]
    exact ⟨Kept.refl .., h, rfl, Nat.eq_zero_of_not_pos hr, rfl⟩

theorem fillLoop_spec {b : Nat} (k : Nat) {m : Mem} {s : MBuf} (h : Ok m s) (hr : s.r = 0) :
    Kept b s.arr m (fillLoop k m s).1 ∧ Ok (fillLoop k m s).1 (fillLoop k m s).2 ∧
      (fillLoop k m s).2.arr = s.arr ∧
      (fillLoop k m s).2.value (fillLoop k m s).1 = Stomp.fillLoop k (s.value m) := by
  induction k generalizing m s with
  | zero => exact ⟨Kept.refl .., ⟨h.rw', h.room, h.there⟩, rfl, rfl⟩
  | succ k ih =>
    have hl := h.unread_length
    rw [hr, Nat.sub_zero] at hl
    have hcap : (s.value m).cap - (s.value m).buf.length = s.size m - s.w := by
      show s.size m - (load m s.unread).length = _
      rw [hl]
    simp only [fillLoop, Stomp.fillLoop, hcap]
    have hch : (s.value m).chunks = s.chunks := rfl
    rw [hch]
    cases ht : transportRead (s.size m - s.w) s.chunks with
    | none => exact ⟨Kept.refl .., ⟨h.rw', h.room, h.there⟩, rfl, rfl⟩
    | some dc =>
      obtain ⟨d, cs⟩ := dc
      have hd := transportRead_length ht
      have hfit : s.w + d.length ≤ (m.getD s.arr []).length := by
        have := h.room
        simp only [MBuf.size] at *; omega
      have hk : Kept b s.arr m (store m s.arr s.w d) := kept_store h.there hfit
      have hok : Ok (store m s.arr s.w d) { s with w := s.w + d.length, chunks := cs } :=
        ⟨by show s.r ≤ _; omega, by simp only [MBuf.size]; rw [hk.size]; exact hfit,
          Nat.lt_of_lt_of_le h.there hk.grows⟩
      have hv : MBuf.value (store m s.arr s.w d) { s with w := s.w + d.length, chunks := cs } =
          { s.value m with buf := (s.value m).buf ++ d, chunks := cs } := by
        simp only [MBuf.value, MBuf.size]
        congr 1
        · exact hk.size
        · rw [show load (store m s.arr s.w d) (MBuf.unread { s with w := s.w + d.length, chunks := cs }) =
            ((patch (m.getD s.arr []) s.w d).drop s.r).take (s.w + d.length - s.r) from by
              unfold load store MBuf.unread; rw [getD_set_self h.there]]
          rw [patch_across h.rw' hfit]
          rfl
      by_cases hd0 : d.length > 0
      · simp only [if_pos hd0]
        exact ⟨hk, hok, trivial, hv⟩
      · simp only [if_neg hd0]
        have := ih hok hr
        rw [hv] at this
        exact ⟨hk.trans this.1, this.2.1, this.2.2.1, this.2.2.2⟩

theorem fill_spec {b : Nat} {m : Mem} {s : MBuf} (h : Ok m s) :
    Kept b s.arr m (fill m s).1 ∧ Ok (fill m s).1 (fill m s).2 ∧ (fill m s).2.arr = s.arr ∧
      (fill m s).2.value (fill m s).1 = Stomp.fill (s.value m) := by
  obtain ⟨h1, h2, h3, h4, h5⟩ := slide_spec (b := b) h
  have := fillLoop_spec (b := b) 100 h2 h4
  rw [h3, h5] at this
  exact ⟨h1.trans this.1, this.2.1, this.2.2.1, this.2.2.2⟩

theorem readBytes_index (d : UInt8) (x : Bytes) :
    readBytes d x = (indexByte d x).map (fun i => (x.take (i + 1), x.drop (i + 1))) := by
  induction x with
  | nil => rfl
  | cons c cs ih =>
    simp only [readBytes, indexByte]
    by_cases hc : c = d
    · simp [hc]
    · simp only [if_neg hc, ih]
      cases indexByte d cs <;> simp

theorem indexByte_lt {d : UInt8} {x : Bytes} {i : Nat} (h : indexByte d x = some i) : i < x.length := by
  induction x generalizing i with
  | nil => simp [indexByte] at h
  | cons c cs ih =>
    simp only [indexByte] at h
    split at h
    · simp at h; subst h; simp
    · cases hx : indexByte d cs with
      | none => rw [hx] at h; simp at h
      | some j => rw [hx] at h; simp at h; subst h; have := ih hx; simp; omega

/-- The slice that is returned is a piece of the buffer. -/
theorem readSlice_spec {b : Nat} (d : UInt8) (fuel : Nat) {m : Mem} {s : MBuf} (h : Ok m s) :
    Kept b s.arr m (readSlice d fuel m s).1 ∧
    match (readSlice d fuel m s).2 with
    | .line l s' => Ok (readSlice d fuel m s).1 s' ∧ s'.arr = s.arr ∧ l.arr = s.arr ∧
        Stomp.readSlice d fuel (s.value m) =
          .line (load (readSlice d fuel m s).1 l) (s'.value (readSlice d fuel m s).1)
    | .full l s' => Ok (readSlice d fuel m s).1 s' ∧ s'.arr = s.arr ∧ l.arr = s.arr ∧
        Stomp.readSlice d fuel (s.value m) =
          .full (load (readSlice d fuel m s).1 l) (s'.value (readSlice d fuel m s).1)
    | .err e => Stomp.readSlice d fuel (s.value m) = .err e := by
  induction fuel generalizing m s with
  | zero => exact ⟨Kept.refl .., rfl⟩
  | succ fuel ih =>
    have hl := h.unread_length
    have hr := h.rw'
    have hw := h.room
    have hbuf : (s.value m).buf = load m s.unread := rfl
    have herr : (s.value m).err = s.err := rfl
    have hcap : (s.value m).cap = s.size m := rfl
    simp only [readSlice, Stomp.readSlice, hbuf, readBytes_index, herr, hcap, hl]
    cases hi : indexByte d (load m s.unread) with
    | some i =>
      have hlt := indexByte_lt hi
      rw [hl] at hlt
      refine ⟨Kept.refl .., ⟨by show s.r + (i + 1) ≤ s.w; omega, hw, h.there⟩, rfl, rfl, ?_⟩
      simp only [Option.map_some]
      congr 1
      · exact (load_take m s.unread (i + 1) (by simp only [MBuf.unread]; omega)).symm
      · unfold MBuf.value
        congr 1
        have := load_drop m s.unread (i + 1)
        rw [← this]
        simp only [MBuf.unread]
        congr 2
        omega
    | none =>
      simp only [Option.map_none]
      cases he : s.err with
      | some e => exact ⟨Kept.refl .., rfl⟩
      | none =>
        by_cases hf : s.w - s.r ≥ s.size m
        · simp only [if_pos hf]
          have h0 : s.r = 0 ∨ s.size m = 0 := by omega
          refine ⟨Kept.refl .., ⟨Nat.le_refl _, hw, h.there⟩, trivial, trivial, ?_⟩
          congr 1
          · unfold load MBuf.unread
            rcases h0 with h0 | h0
            · rw [h0]; simp only [Nat.sub_zero]
              have : s.w = s.size m := by omega
              rw [this]
            · have : m.getD s.arr [] = [] := List.eq_nil_of_length_eq_zero h0
              rw [this]; simp
          · unfold MBuf.value
            congr 1
            · unfold load MBuf.unread; simp
        · simp only [if_neg hf]
          obtain ⟨f1, f2, f3, f4⟩ := fill_spec (b := b) h
          have := ih f2
          rw [f3, f4] at this
          exact ⟨f1.trans this.1, this.2⟩


theorem fuel_value (m : Mem) (s : MBuf) : s.fuel m = (s.value m).fuel := rfl

theorem collect_spec {b : Nat} (d : UInt8) (fuel : Nat) (parts : List Ref) (acc : Bytes) {m : Mem} {s : MBuf} (h : Ok m s)
    (hb : b ≤ m.length) (hp : ∀ p ∈ parts, p.arr < m.length ∧ p.arr ≠ s.arr)
    (ha : (parts.map (load m)).flatten = acc) :
    Kept b s.arr m (collect d fuel parts m s).1 ∧
    match (collect d fuel parts m s).2 with
    | .ok (ps, l, s') => Ok (collect d fuel parts m s).1 s' ∧ s'.arr = s.arr ∧
        Stomp.bufReadBytes d fuel acc (s.value m) =
          .ok ((ps.map (load (collect d fuel parts m s).1)).flatten ++ load (collect d fuel parts m s).1 l,
            s'.value (collect d fuel parts m s).1)
    | .error e => Stomp.bufReadBytes d fuel acc (s.value m) = .error e := by
  induction fuel generalizing parts acc m s with
  | zero => exact ⟨Kept.refl .., rfl⟩
  | succ fuel ih =>
    simp only [collect, Stomp.bufReadBytes, ← fuel_value]
    have hk := (readSlice_spec (b := b) d (s.fuel m) h).1
    have hsp := readSlice_spec (b := m.length) d (s.fuel m) h
    have hparts : ∀ p ∈ parts, load (readSlice d (s.fuel m) m s).1 p = load m p := fun p hpm =>
      hsp.1.load (hp p hpm).1 (hp p hpm).2
    have hacc : (parts.map (load (readSlice d (s.fuel m) m s).1)).flatten = acc := by
      rw [← ha]; congr 1; exact List.map_congr_left hparts
    have hgrow := hsp.1.grows
    rcases hres : readSlice d (s.fuel m) m s with ⟨m1, res⟩
    rw [hres] at hsp hk hacc hgrow
    cases res with
    | line l s1 =>
      simp only at hsp ⊢
      obtain ⟨_, h2, h3, _, h5⟩ := hsp
      refine ⟨hk, h2, h3, ?_⟩
      rw [h5]; simp only; rw [hacc]
    | err e =>
      simp only at hsp ⊢
      refine ⟨hk, ?_⟩
      rw [hsp.2]
    | full l s1 =>
      simp only at hsp ⊢
      obtain ⟨_, h2, h3, h4, h5⟩ := hsp
      rw [h5]; simp only
      have hal := value_alloc h2 (load m1 l)
      have hok : Ok (alloc m1 (load m1 l)) s1 := h2.kept (kept_alloc (Nat.le_refl _) h2.there)
      have := ih (parts ++ [fresh m1 (load m1 l)]) (acc ++ load m1 l) hok
        (by simp [alloc]; simp only at hgrow; omega)
        (by
          intro p hpm
          rcases List.mem_append.mp hpm with hq | hq
          · have := hp p hq
            rw [h3]
            exact ⟨by simp [alloc]; simp only at hgrow; omega, this.2⟩
          · simp only [List.mem_singleton] at hq
            subst hq
            simp only [fresh, alloc, List.length_append, List.length_singleton]
            exact ⟨by omega, Nat.ne_of_gt h2.there⟩)
        (by
          rw [List.map_append, List.flatten_append]
          simp only [List.map_cons, List.map_nil, List.flatten_cons, List.flatten_nil, List.append_nil]
          rw [load_fresh, ← hacc]
          congr 2
          apply List.map_congr_left
          intro p hpm
          exact load_alloc (by have := (hp p hpm).1; simp only at hgrow; omega))
      rw [hal, h3] at this
      have ka : Kept b s.arr m1 (alloc m1 (load m1 l)) :=
        kept_alloc (by simp only at hgrow; omega) (by rw [← h3]; exact h2.there)
      exact ⟨hk.trans (ka.trans this.1), this.2⟩

/-- `ReadBytes` returns an array of its own. -/
theorem bufReadBytes_spec {b : Nat} (d : UInt8) {m : Mem} {s : MBuf} (h : Ok m s) (hb : b ≤ m.length) :
    Kept b s.arr m (bufReadBytes d m s).1 ∧
    match (bufReadBytes d m s).2 with
    | .ok (l, s') => Ok (bufReadBytes d m s).1 s' ∧ s'.arr = s.arr ∧
        m.length ≤ l.arr ∧ l.arr < (bufReadBytes d m s).1.length ∧ l.arr ≠ s.arr ∧
        l.off + l.len ≤ ((bufReadBytes d m s).1.getD l.arr []).length ∧
        Stomp.bufReadBytes d (s.fuel m) [] (s.value m) =
          .ok (load (bufReadBytes d m s).1 l, s'.value (bufReadBytes d m s).1)
    | .error e => Stomp.bufReadBytes d (s.fuel m) [] (s.value m) = .error e := by
  have hc := collect_spec (b := b) d (s.fuel m) [] [] h hb (by simp) rfl
  unfold bufReadBytes
  rcases hres : collect d (s.fuel m) [] m s with ⟨m1, res⟩
  rw [hres] at hc
  cases res with
  | error e => exact hc
  | ok r =>
    obtain ⟨ps, l, s1⟩ := r
    simp only at hc ⊢
    obtain ⟨h1, h2, h3, h4⟩ := hc
    have hal := value_alloc h2 ((ps.map (load m1)).flatten ++ load m1 l)
    refine ⟨h1.trans (kept_alloc (Nat.le_trans hb h1.grows) (by rw [← h3]; exact h2.there)),
      h2.kept (kept_alloc (Nat.le_refl _) h2.there), h3, h1.grows, by simp [fresh, alloc], ?_, ?_, ?_⟩
    · simp only [fresh]; rw [← h3]; exact Nat.ne_of_gt h2.there
    · simp [fresh, alloc]
    · rw [h4, load_fresh, hal]

/-- `x` has been written to the place `p` and nothing else of its array is different. -/
structure Put (p : Ref) (x : Bytes) (m m' : Mem) : Prop where
  le : x.length ≤ p.len
  at_ : m'.getD p.arr [] = patch (m.getD p.arr []) p.off x
  grows : m'.length = m.length

theorem put_store {p : Ref} {x : Bytes} {m m1 : Mem} (hx : x.length ≤ p.len) (hp : p.arr < m.length)
    (hs : m1.getD p.arr [] = m.getD p.arr []) (hg : m1.length = m.length) : Put p x m (store m1 p.arr p.off x) :=
  ⟨hx, by unfold store; rw [getD_set_self (by omega), hs], by rw [store_length, hg]⟩

theorem store_value {p : Nat} {m : Mem} {s : MBuf} (i : Nat) (d : Bytes) (hp : p ≠ s.arr) :
    s.value (store m p i d) = s.value m := by
  unfold MBuf.value MBuf.size load MBuf.unread store
  rw [getD_set_ne (Ne.symm hp)]

theorem bufRead_spec {b : Nat} {p : Ref} {m : Mem} {s : MBuf} (h : Ok m s) (hb : b ≤ p.arr) (hpl : p.arr < m.length)
    (hpa : p.arr ≠ s.arr) :
    Kept b s.arr m (bufRead p m s).1 ∧
    match (bufRead p m s).2 with
    | .ok (n, s') => Ok (bufRead p m s).1 s' ∧ s'.arr = s.arr ∧
        ∃ x : Bytes, x.length = n ∧ Put p x m (bufRead p m s).1 ∧
          Stomp.bufRead p.len (s.value m) = .ok (x, s'.value (bufRead p m s).1)
    | .error e => Stomp.bufRead p.len (s.value m) = .error e := by
  have hl := h.unread_length
  have hr := h.rw'
  have hw := h.room
  have hbuf : (s.value m).buf = load m s.unread := rfl
  have herr : (s.value m).err = s.err := rfl
  have hcap : (s.value m).cap = s.size m := rfl
  have hch : (s.value m).chunks = s.chunks := rfl
  have hzero : (s.w - s.r = 0) = (s.r = s.w) := by apply propext; constructor <;> intro <;> omega
  unfold bufRead Stomp.bufRead
  simp only [hbuf, herr, hcap, hch, hl, hzero]
  by_cases hrw : s.r = s.w
  · simp only [if_pos hrw]
    cases he : s.err with
    | some e => exact ⟨Kept.refl .., rfl⟩
    | none =>
      have hnil : load m s.unread = [] := List.eq_nil_of_length_eq_zero (by omega)
      by_cases hbig : p.len ≥ s.size m
      · simp only [if_pos hbig]
        cases ht : transportRead p.len s.chunks with
        | none => exact ⟨Kept.refl .., rfl⟩
        | some dc =>
          obtain ⟨d, cs⟩ := dc
          have hd := transportRead_length ht
          have hk : Kept b s.arr m (store m p.arr p.off d) := kept_store_new hb hpa
          simp only
          refine ⟨hk, (⟨hr, hw, h.there⟩ : Ok m { s with chunks := cs, err := none }).kept hk, trivial, d, rfl,
            put_store hd hpl rfl rfl, ?_⟩
          rw [store_value (s := { s with chunks := cs, err := none }) _ _ hpa]
          rfl
      · simp only [if_neg hbig]
        cases ht : transportRead (s.size m) s.chunks with
        | none => exact ⟨Kept.refl .., rfl⟩
        | some dc =>
          obtain ⟨d, cs⟩ := dc
          have hd := transportRead_length ht
          simp only
          by_cases hd0 : d.length = 0
          · simp only [if_pos hd0]
            refine ⟨Kept.refl .., ⟨Nat.le_refl _, Nat.zero_le _, h.there⟩, trivial, [], rfl,
              ⟨Nat.zero_le _, by simp [patch], rfl⟩, ?_⟩
            unfold MBuf.value
            simp only [MBuf.size, hnil]
            simp [load, MBuf.unread]
          · simp only [if_neg hd0]
            have hfit : 0 + d.length ≤ (m.getD s.arr []).length := by
              simp only [MBuf.size] at hd; omega
            have hk1 : Kept b s.arr m (store m s.arr 0 d) := kept_store h.there hfit
            have hld : load (store m s.arr 0 d) ⟨s.arr, 0, min p.len d.length⟩ = d.take p.len := by
              unfold load store
              rw [getD_set_self h.there]
              simp only [patch, List.take_zero, List.nil_append, List.drop_zero]
              rw [List.take_append_of_le_length (by omega)]
              rw [← List.take_take, List.take_length]
            rw [hld]
            have hk2 : Kept b s.arr (store m s.arr 0 d) (store (store m s.arr 0 d) p.arr p.off (d.take p.len)) :=
              kept_store_new hb hpa
            have hxl : (d.take p.len).length ≤ d.length := by simp; omega
            refine ⟨hk1.trans hk2, ⟨hxl, ?_, ?_⟩, trivial, _, rfl, put_store (by simp; omega) hpl ?_ ?_, ?_⟩
            · simp only [MBuf.size]
              rw [(hk1.trans hk2).size]
              omega
            · rw [store_length, store_length]; exact h.there
            · unfold store; rw [getD_set_ne hpa]
            · exact store_length ..
            · rw [store_value (s := { s with r := (d.take p.len).length, w := d.length, chunks := cs, err := none }) _ _ hpa]
              unfold MBuf.value
              congr 2
              congr 1
              · simp only [MBuf.size]; exact hk1.size.symm
              · unfold load store MBuf.unread
                simp only
                rw [getD_set_self h.there]
                simp only [patch, List.take_zero, List.nil_append, List.length_take]
                rw [List.drop_append_of_le_length (by omega), List.take_append_of_le_length (by simp)]
                rw [List.take_of_length_le (by simp)]
                by_cases hpd : p.len ≤ d.length
                · rw [Nat.min_eq_left hpd]
                · rw [Nat.min_eq_right (by omega), List.drop_eq_nil_of_le (by omega),
                    List.drop_eq_nil_of_le (Nat.le_refl _)]
  · simp only [if_neg hrw]
    have hld : load m ⟨s.arr, s.r, min p.len (s.w - s.r)⟩ = (load m s.unread).take p.len := by
      unfold load MBuf.unread
      simp only [List.take_take]
    rw [hld]
    have hk : Kept b s.arr m (store m p.arr p.off ((load m s.unread).take p.len)) := kept_store_new hb hpa
    have hxl : ((load m s.unread).take p.len).length = min p.len (s.w - s.r) := by simp [hl]
    refine ⟨hk, ⟨?_, ?_, ?_⟩, trivial, _, rfl, put_store (by rw [hxl]; omega) hpl rfl rfl, ?_⟩
    · show s.r + _ ≤ s.w; rw [hxl]; omega
    · simp only [MBuf.size]; rw [hk.size]; exact hw
    · rw [store_length]; exact h.there
    · rw [store_value (s := { s with r := s.r + ((load m s.unread).take p.len).length }) _ _ hpa]
      unfold MBuf.value
      congr 2
      congr 1
      rw [hxl]
      have := load_drop m s.unread (min p.len (s.w - s.r))
      rw [show load m (MBuf.unread { s with r := s.r + min p.len (s.w - s.r) }) =
        load m ⟨s.unread.arr, s.unread.off + min p.len (s.w - s.r), s.unread.len - min p.len (s.w - s.r)⟩ from by
          simp only [MBuf.unread]; congr 2; omega]
      rw [this]
      by_cases hpd : p.len ≤ s.w - s.r
      · rw [Nat.min_eq_left hpd]
      · rw [Nat.min_eq_right (by omega), List.drop_eq_nil_of_le (by omega),
          List.drop_eq_nil_of_le (by omega)]

theorem bufReadByte_spec (fuel : Nat) {m : Mem} {s : MBuf} (h : Ok m s) :
    (∀ b, Kept b s.arr m (bufReadByte fuel m s).1) ∧
    match (bufReadByte fuel m s).2 with
    | .ok (x, s') => Ok (bufReadByte fuel m s).1 s' ∧ s'.arr = s.arr ∧
        Stomp.bufReadByte fuel (s.value m) = .ok (x, s'.value (bufReadByte fuel m s).1)
    | .error e => Stomp.bufReadByte fuel (s.value m) = .error e := by
  induction fuel generalizing m s with
  | zero => exact ⟨fun _ => Kept.refl .., rfl⟩
  | succ fuel ih =>
    have hl := h.unread_length
    have hr := h.rw'
    have hbuf : (s.value m).buf = load m s.unread := rfl
    have herr : (s.value m).err = s.err := rfl
    unfold bufReadByte Stomp.bufReadByte
    simp only [hbuf, herr]
    cases hx : load m s.unread with
    | cons x xs =>
      rw [hx] at hl
      simp only [List.length_cons] at hl
      refine ⟨fun _ => Kept.refl .., ⟨by show s.r + 1 ≤ s.w; omega, h.room, h.there⟩, rfl, ?_⟩
      simp only
      unfold MBuf.value
      congr 3
      have := load_drop m s.unread 1
      rw [hx] at this
      simp only [List.drop_succ_cons, List.drop_zero] at this
      rw [← this]
      simp only [MBuf.unread]
      congr 2
    | nil =>
      simp only
      cases he : s.err with
      | some e => exact ⟨fun _ => Kept.refl .., rfl⟩
      | none =>
        obtain ⟨_, f2, f3, f4⟩ := fill_spec (b := 0) h
        have := ih f2
        rw [f3, f4] at this
        exact ⟨fun b => (fill_spec (b := b) h).1.trans (this.1 b), this.2⟩

/-! ## `frame.Reader` -/

/-- The reference is to an array made since there were `base` arrays, and not to `a`. -/
structure Own (base a : Nat) (m : Mem) (r : Ref) : Prop where
  new : base ≤ r.arr
  there : r.arr < m.length
  ne : r.arr ≠ a

theorem Own.kept {base a b : Nat} {m m' : Mem} {r : Ref} (h : Own base a m r) (hk : Kept b a m m') : Own base a m' r :=
  ⟨h.new, Nat.lt_of_lt_of_le h.there hk.grows, h.ne⟩

theorem Own.load {base a : Nat} {m m' : Mem} {r : Ref} (h : Own base a m r) (hk : Kept m.length a m m') :
    Mem.load m' r = Mem.load m r := hk.load h.there h.ne

theorem Own.mono {base base' a : Nat} {m : Mem} {r : Ref} (h : Own base a m r) (hb : base' ≤ base) : Own base' a m r :=
  ⟨Nat.le_trans hb h.new, h.there, h.ne⟩

/-- The slice lies within its array. -/
def Within (m : Mem) (r : Ref) : Prop := r.off + r.len ≤ (m.getD r.arr []).length

theorem stripEol_spec {m : Mem} {l : Ref} (h : Within m l) :
    load m (stripEol m l) = Stomp.stripEol (load m l) ∧ (stripEol m l).arr = l.arr ∧ Within m (stripEol m l) := by
  have hl := load_length h
  unfold Within at h
  unfold stripEol Stomp.stripEol
  rw [hl]
  split
  · exact ⟨load_take m l _ (by omega), rfl, by unfold Within; simp only; omega⟩
  · split
    · exact ⟨load_take m l _ (by omega), rfl, by unfold Within; simp only; omega⟩
    · exact ⟨rfl, rfl, h⟩

theorem readLine_spec {b : Nat} {m : Mem} {s : MBuf} (h : Ok m s) (hb : b ≤ m.length) :
    Kept b s.arr m (readLine m s).1 ∧
    match (readLine m s).2 with
    | .ok (l, s') => Ok (readLine m s).1 s' ∧ s'.arr = s.arr ∧ Own m.length s.arr (readLine m s).1 l ∧
        Within (readLine m s).1 l ∧
        cReadLine (s.value m) = .ok (load (readLine m s).1 l, s'.value (readLine m s).1)
    | .error e => cReadLine (s.value m) = .error e := by
  have hs := bufReadBytes_spec (b := b) 10 h hb
  unfold readLine cReadLine
  rw [← fuel_value]
  rcases hres : bufReadBytes 10 m s with ⟨m1, res⟩
  rw [hres] at hs
  cases res with
  | error e =>
    simp only at hs ⊢
    exact ⟨hs.1, by rw [hs.2]⟩
  | ok r =>
    obtain ⟨l, s1⟩ := r
    simp only at hs ⊢
    obtain ⟨h1, h2, h3, h4, h5, h6, h7, h8⟩ := hs
    obtain ⟨e1, e2, e3⟩ := stripEol_spec (m := m1) (l := l) h7
    refine ⟨h1, h2, h3, ⟨by rw [e2]; exact h4, by rw [e2]; exact h5, by rw [e2]; exact h6⟩, e3, ?_⟩
    rw [h8]; simp only; rw [e1]

theorem unencode_spec {base a : Nat} (keeps : Bool) {m : Mem} {r : Ref} (hr : Own base a m r) (ha : a < m.length) :
    Kept m.length a m (unencode keeps m r).1 ∧
      Own base a (unencode keeps m r).1 (unencode keeps m r).2 ∧
      load (unencode keeps m r).1 (unencode keeps m r).2 = unencodeValue (load m r) := by
  unfold unencode
  split
  · next h =>
    simp only [Bool.and_eq_true, beq_iff_eq] at h
    exact ⟨Kept.refl .., hr, h.2.symm⟩
  · refine ⟨kept_alloc (Nat.le_refl _) ha, ⟨?_, by simp [fresh, alloc], ?_⟩, load_fresh ..⟩
    · exact Nat.le_trans hr.new (Nat.le_of_lt hr.there)
    · exact Nat.ne_of_gt ha

theorem parseHeaderLine_spec {base a : Nat} (keeps : Bool) {m : Mem} {l : Ref} (hl : Own base a m l)
    (ha : a < m.length) :
    Kept m.length a m (parseHeaderLine keeps m l).1 ∧
    match (parseHeaderLine keeps m l).2 with
    | some kv => Own base a (parseHeaderLine keeps m l).1 kv.1 ∧ Own base a (parseHeaderLine keeps m l).1 kv.2 ∧
        Stomp.parseHeaderLine (load m l) =
          some (load (parseHeaderLine keeps m l).1 kv.1, load (parseHeaderLine keeps m l).1 kv.2)
    | none => Stomp.parseHeaderLine (load m l) = none := by
  unfold parseHeaderLine Stomp.parseHeaderLine
  cases hi : indexByte 58 (load m l) with
  | none => exact ⟨Kept.refl .., rfl⟩
  | some i =>
    cases i with
    | zero => exact ⟨Kept.refl .., rfl⟩
    | succ i =>
      have hlt := indexByte_lt hi
      have hlen : (load m l).length ≤ l.len := by unfold load; simp; omega
      simp only
      have o1 : Own base a m ⟨l.arr, l.off, i + 1⟩ := ⟨hl.new, hl.there, hl.ne⟩
      obtain ⟨k1, w1, v1⟩ := unencode_spec keeps o1 ha
      have o2 : Own base a (unencode keeps m ⟨l.arr, l.off, i + 1⟩).1 ⟨l.arr, l.off + (i + 2), l.len - (i + 2)⟩ :=
        Own.kept (r := ⟨l.arr, l.off + (i + 2), l.len - (i + 2)⟩) (m := m) ⟨hl.new, hl.there, hl.ne⟩ k1
      obtain ⟨k2, w2, v2⟩ := unencode_spec keeps o2 (Nat.lt_of_lt_of_le ha k1.grows)
      refine ⟨k1.trans (k2.mono k1.grows), w1.kept k2, w2, ?_⟩
      rw [w1.load k2, v1, v2]
      congr 2
      · rw [load_take m l (i + 1) (by omega)]
      · rw [← load_drop m l (i + 2)]
        congr 1
        exact (k1.load (r := ⟨l.arr, l.off + (i + 2), l.len - (i + 2)⟩) hl.there hl.ne).symm

theorem unencode_grown (keeps : Bool) (m : Mem) (r : Ref) : ∃ t, (unencode keeps m r).1 = m ++ t := by
  unfold unencode
  split
  · exact ⟨[], by simp⟩
  · exact ⟨_, rfl⟩

theorem parseHeaderLine_grown (keeps : Bool) (m : Mem) (l : Ref) : ∃ t, (parseHeaderLine keeps m l).1 = m ++ t := by
  unfold parseHeaderLine
  split
  · exact ⟨[], by simp⟩
  · exact ⟨[], by simp⟩
  · next i _ =>
    obtain ⟨t, ht⟩ := unencode_grown keeps m ⟨l.arr, l.off, i + 1⟩
    obtain ⟨t', ht'⟩ := unencode_grown keeps (unencode keeps m ⟨l.arr, l.off, i + 1⟩).1
      ⟨l.arr, l.off + (i + 2), l.len - (i + 2)⟩
    exact ⟨t ++ t', by simp only; rw [ht', ht, List.append_assoc]⟩

theorem value_grown {m : Mem} {s : MBuf} (h : Ok m s) (t : Mem) : s.value (m ++ t) = s.value m := by
  unfold MBuf.value MBuf.size load MBuf.unread
  simp [List.getElem?_append_left h.there]

theorem loadHeader_kept {base a : Nat} {m m' : Mem} {h : List (Ref × Ref)}
    (ho : ∀ kv ∈ h, Own base a m kv.1 ∧ Own base a m kv.2) (hk : Kept m.length a m m') :
    loadHeader m' h = loadHeader m h := by
  unfold loadHeader
  apply List.map_congr_left
  intro kv hkv
  rw [(ho kv hkv).1.load hk, (ho kv hkv).2.load hk]

theorem readHeaders_spec {base b : Nat} (keeps : Bool) (fuel : Nat) {m : Mem} {s : MBuf} {h : List (Ref × Ref)}
    (hok : Ok m s) (hb : b ≤ m.length) (hbase : base ≤ m.length)
    (ho : ∀ kv ∈ h, Own base s.arr m kv.1 ∧ Own base s.arr m kv.2) :
    Kept b s.arr m (readHeaders keeps fuel m s h).1 ∧
    match (readHeaders keeps fuel m s h).2 with
    | .ok (h', s') => Ok (readHeaders keeps fuel m s h).1 s' ∧ s'.arr = s.arr ∧
        (∀ kv ∈ h', Own base s.arr (readHeaders keeps fuel m s h).1 kv.1 ∧
          Own base s.arr (readHeaders keeps fuel m s h).1 kv.2) ∧
        cReadHeaders fuel (s.value m) (loadHeader m h) =
          .ok (loadHeader (readHeaders keeps fuel m s h).1 h', s'.value (readHeaders keeps fuel m s h).1)
    | .error e => cReadHeaders fuel (s.value m) (loadHeader m h) = .error e := by
  induction fuel generalizing m s h with
  | zero => exact ⟨Kept.refl .., rfl⟩
  | succ fuel ih =>
    simp only [readHeaders, cReadHeaders]
    have hr := readLine_spec hok (Nat.le_refl _)
    rcases hres : readLine m s with ⟨m1, res⟩
    rw [hres] at hr
    cases res with
    | error e =>
      simp only at hr ⊢
      exact ⟨hr.1.mono hb, by rw [hr.2]⟩
    | ok r =>
      obtain ⟨l, s1⟩ := r
      simp only at hr ⊢
      obtain ⟨h1, h2, h3, h4, h5, h6⟩ := hr
      have hll := load_length h5
      have ho1 : ∀ kv ∈ h, Own base s.arr m1 kv.1 ∧ Own base s.arr m1 kv.2 := fun kv hkv =>
        ⟨(ho kv hkv).1.kept h1, (ho kv hkv).2.kept h1⟩
      have hh1 : loadHeader m1 h = loadHeader m h := loadHeader_kept ho h1
      rw [h6]
      simp only [hll]
      by_cases hz : l.len = 0
      · simp only [if_pos hz]
        exact ⟨h1.mono hb, h2, h3, ho1, by rw [hh1]⟩
      · simp only [if_neg hz]
        have hal : s.arr < m1.length := by rw [← h3]; exact h2.there
        have hp := parseHeaderLine_spec keeps (h4.mono hbase) hal
        rcases hpr : parseHeaderLine keeps m1 l with ⟨m2, res⟩
        rw [hpr] at hp
        cases res with
        | none =>
          simp only at hp ⊢
          rw [hp.2]
          exact ⟨(h1.mono hb).trans (hp.1.mono (Nat.le_trans hb h1.grows)), rfl⟩
        | some kv =>
          simp only at hp ⊢
          obtain ⟨p1, p2, p3, p4⟩ := hp
          rw [p4]
          simp only
          have hok2 : Ok m2 s1 := h2.kept (b := m1.length) (by rw [h3]; exact p1)
          have ho2 : ∀ e ∈ h ++ [kv], Own base s1.arr m2 e.1 ∧ Own base s1.arr m2 e.2 := by
            intro e he
            rw [h3]
            rcases List.mem_append.mp he with he | he
            · exact ⟨(ho1 e he).1.kept p1, (ho1 e he).2.kept p1⟩
            · simp only [List.mem_singleton] at he
              subst he
              exact ⟨p2, p3⟩
          have hg : m.length ≤ m2.length := Nat.le_trans h1.grows p1.grows
          have := ih hok2 (Nat.le_trans hb hg) (Nat.le_trans hbase hg) ho2
          rw [h3] at this
          have hv : s1.value m2 = s1.value m1 := by
            obtain ⟨t, ht⟩ := parseHeaderLine_grown keeps m1 l
            rw [hpr] at ht; simp only at ht
            rw [ht]
            exact value_grown h2 t
          have hh2 : loadHeader m2 (h ++ [kv]) = Header.add (loadHeader m h) (load m2 kv.1) (load m2 kv.2) := by
            rw [← hh1, ← loadHeader_kept ho1 p1]
            simp [loadHeader, Header.add]
          rw [hv, hh2] at this
          exact ⟨((h1.mono hb).trans (p1.mono (Nat.le_trans hb h1.grows))).trans this.1, this.2⟩

/-- The body loop leaves alone the arrays that were there before the body was made. -/
theorem bodyLoop_spec {b : Nat} (fuel got : Nat) (acc : Bytes) {p : Ref} {m : Mem} {s : MBuf} (h : Ok m s)
    (hb : b ≤ p.arr) (hpl : p.arr < m.length) (hpa : p.arr ≠ s.arr) (hw : Within m p)
    (hg : acc.length = got) (hle : got ≤ p.len) (ha : load m ⟨p.arr, p.off, got⟩ = acc) :
    Kept b s.arr m (bodyLoop fuel got p m s).1 ∧
    match (bodyLoop fuel got p m s).2 with
    | .ok s' => Ok (bodyLoop fuel got p m s).1 s' ∧ s'.arr = s.arr ∧
        p.arr < (bodyLoop fuel got p m s).1.length ∧ Within (bodyLoop fuel got p m s).1 p ∧
        cBodyLoop fuel (p.len - got) acc (s.value m) =
          .ok (load (bodyLoop fuel got p m s).1 p, s'.value (bodyLoop fuel got p m s).1)
    | .error e => cBodyLoop fuel (p.len - got) acc (s.value m) = .error e := by
  induction fuel generalizing got acc m s with
  | zero => exact ⟨Kept.refl .., rfl⟩
  | succ fuel ih =>
    simp only [bodyLoop, cBodyLoop]
    by_cases hz : p.len - got = 0
    · simp only [if_pos hz]
      have : got = p.len := by omega
      refine ⟨Kept.refl .., h, trivial, hpl, hw, ?_⟩
      rw [← ha, this]
    · simp only [if_neg hz]
      have hr := bufRead_spec (b := b) (p := ⟨p.arr, p.off + got, p.len - got⟩) h hb hpl hpa
      rcases hres : bufRead ⟨p.arr, p.off + got, p.len - got⟩ m s with ⟨m1, res⟩
      rw [hres] at hr
      cases res with
      | error e =>
        simp only at hr ⊢
        exact ⟨hr.1, by rw [hr.2]⟩
      | ok r =>
        obtain ⟨n, s1⟩ := r
        simp only at hr ⊢
        obtain ⟨h1, h2, h3, x, hx, hput, hv⟩ := hr
        have hxle := hput.le
        simp only at hxle
        unfold Within at hw
        have hfit : p.off + got + x.length ≤ (m.getD p.arr []).length := by omega
        have hat := hput.at_
        simp only at hat
        have hw1 : Within m1 p := by
          unfold Within
          rw [hat, patch_length hfit]; exact hw
        have hacc : load m1 ⟨p.arr, p.off, got + n⟩ = acc ++ x := by
          unfold load
          rw [hat, ← hx, show got + x.length = p.off + got + x.length - p.off by omega,
            patch_across (by omega) hfit, ← ha]
          unfold load
          simp only
          congr 2
          omega
        have := ih (got + n) (acc ++ x) h2 (by rw [hput.grows]; exact hpl) (by rw [h3]; exact hpa) hw1
          (by rw [List.length_append, hg, hx]) (by omega) hacc
        rw [h3] at this
        rw [hv]
        simp only
        rw [show p.len - got - x.length = p.len - (got + n) by omega]
        exact ⟨h1.trans this.1, this.2⟩

theorem readBody_spec {m : Mem} {s : MBuf} {h : List (Ref × Ref)} (hok : Ok m s) :
    Kept m.length s.arr m (readBody h m s).1 ∧
    match (readBody h m s).2 with
    | .ok (body, s') => Ok (readBody h m s).1 s' ∧ s'.arr = s.arr ∧ Own m.length s.arr (readBody h m s).1 body ∧
        Within (readBody h m s).1 body ∧
        cReadBody (loadHeader m h) (s.value m) = .ok (load (readBody h m s).1 body, s'.value (readBody h m s).1)
    | .error e => cReadBody (loadHeader m h) (s.value m) = .error e := by
  unfold readBody cReadBody
  cases hc : (loadHeader m h).contentLength with
  | none =>
    simp only
    have hr := bufReadBytes_spec 0 hok (Nat.le_refl _)
    rw [← fuel_value]
    rcases hres : bufReadBytes 0 m s with ⟨m1, res⟩
    rw [hres] at hr
    cases res with
    | error e =>
      simp only at hr ⊢
      exact ⟨hr.1, by rw [hr.2]⟩
    | ok r =>
      obtain ⟨l, s1⟩ := r
      simp only at hr ⊢
      obtain ⟨h1, h2, h3, h4, h5, h6, h7, h8⟩ := hr
      have hl := load_length h7
      refine ⟨h1, h2, h3, ⟨h4, h5, h6⟩, by unfold Within; simp only; omega, ?_⟩
      rw [h8]
      simp only
      rw [hl]
      congr 2
      exact (load_take m1 l (l.len - 1) (by omega)).symm
  | some c =>
    cases c with
    | none => exact ⟨Kept.refl .., rfl⟩
    | some n =>
      simp only
      have hka : Kept m.length s.arr m (alloc m (List.replicate n 0)) := kept_alloc (Nat.le_refl _) hok.there
      have hok1 : Ok (alloc m (List.replicate n 0)) s := hok.kept hka
      have hv : s.value (alloc m (List.replicate n 0)) = s.value m := value_alloc hok _
      have hne : m.length ≠ s.arr := Nat.ne_of_gt hok.there
      have hb := bodyLoop_spec (b := m.length) (s.fuel m + 1) 0 [] (p := fresh m (List.replicate n 0)) hok1
        (Nat.le_refl _) (by simp [fresh, alloc]) hne (by simp [Within, fresh, alloc]) rfl (Nat.zero_le _)
        (by simp [load])
      rw [hv] at hb
      have hlen : (fresh m (List.replicate n 0)).len - 0 = n := by simp [fresh]
      rw [hlen] at hb
      rw [← fuel_value]
      rcases hres : bodyLoop (s.fuel m + 1) 0 (fresh m (List.replicate n 0)) (alloc m (List.replicate n 0)) s with
        ⟨m1, res⟩
      rw [hres] at hb
      cases res with
      | error e =>
        simp only at hb ⊢
        exact ⟨hka.trans hb.1, by rw [hb.2]⟩
      | ok s1 =>
        simp only at hb ⊢
        obtain ⟨h1, h2, h3, h4, h5, h6⟩ := hb
        rw [h6]
        simp only
        have ht := bufReadByte_spec (s1.fuel m1) h2
        rw [← fuel_value]
        rcases hres : bufReadByte (s1.fuel m1) m1 s1 with ⟨m2, res⟩
        rw [hres, h3] at ht
        have hk2 := ht.1 m.length
        simp only at hk2
        cases res with
        | error e =>
          simp only at ht ⊢
          exact ⟨hka.trans (h1.trans hk2), by rw [ht.2]⟩
        | ok r =>
          obtain ⟨t, s2⟩ := r
          simp only at ht ⊢
          obtain ⟨t1, t2, t3, t4⟩ := ht
          rw [t4]
          simp only
          by_cases ht0 : t ≠ 0
          · simp only [if_pos ht0]
            exact ⟨hka.trans (h1.trans hk2), trivial⟩
          · simp only [if_neg ht0]
            have hkx := t1 m1.length
            have hsame : m2.getD m.length [] = m1.getD m.length [] := hkx.same _ h4 hne
            refine ⟨hka.trans (h1.trans hk2), t2, t3,
              ⟨Nat.le_refl _, Nat.lt_of_lt_of_le h4 hkx.grows, hne⟩, ?_, ?_⟩
            · unfold Within at h5 ⊢
              rw [show (fresh m (List.replicate n 0)).arr = m.length from rfl] at h5 ⊢
              rw [hsame]; exact h5
            · rw [show load m2 (fresh m (List.replicate n 0)) = load m1 (fresh m (List.replicate n 0)) from by
                unfold load; rw [show (fresh m (List.replicate n 0)).arr = m.length from rfl, hsame]]

/-- What a frame just read refers to: arrays made by this read; the body is in one of its own. -/
structure FrameOwn (base a : Nat) (m : Mem) (f : MFrame) : Prop where
  command : Own base a m f.command
  header : ∀ kv ∈ f.header, Own base a m kv.1 ∧ Own base a m kv.2
  body : Own base a m f.body
  within : Within m f.body
  command_body : f.command.arr ≠ f.body.arr
  header_body : ∀ kv ∈ f.header, kv.1.arr ≠ f.body.arr ∧ kv.2.arr ≠ f.body.arr

theorem readFrame_spec (keeps : Bool) {m : Mem} {s : MBuf} (hok : Ok m s) :
    Kept m.length s.arr m (readFrame keeps m s).1 ∧
    match (readFrame keeps m s).2 with
    | .frame f s' => Ok (readFrame keeps m s).1 s' ∧ s'.arr = s.arr ∧
        FrameOwn m.length s.arr (readFrame keeps m s).1 f ∧
        cReadFrame (s.value m) = .frame (f.value (readFrame keeps m s).1) (s'.value (readFrame keeps m s).1)
    | .heartbeat s' => Ok (readFrame keeps m s).1 s' ∧ s'.arr = s.arr ∧
        cReadFrame (s.value m) = .heartbeat (s'.value (readFrame keeps m s).1)
    | .err e => cReadFrame (s.value m) = .err e := by
  unfold readFrame cReadFrame
  have hr := readLine_spec hok (Nat.le_refl _)
  rcases hres : readLine m s with ⟨m1, res⟩
  rw [hres] at hr
  cases res with
  | error e =>
    simp only at hr ⊢
    exact ⟨hr.1, by rw [hr.2]⟩
  | ok r =>
    obtain ⟨l, s1⟩ := r
    simp only at hr ⊢
    obtain ⟨h1, h2, h3, h4, h5, h6⟩ := hr
    have hll := load_length h5
    rw [h6]
    simp only [hll]
    by_cases hz : l.len = 0
    · simp only [if_pos hz]
      exact ⟨h1, h2, h3, trivial⟩
    · simp only [if_neg hz]
      have hal : s.arr < m1.length := by rw [← h3]; exact h2.there
      have hka : Kept m.length s.arr m1 (alloc m1 (load m1 l)) := kept_alloc h1.grows hal
      by_cases hcmd : load m1 l ∉ validCommands
      · simp only [if_pos hcmd]
        exact ⟨h1.trans hka, trivial⟩
      · simp only [if_neg hcmd]
        have hok2 : Ok (alloc m1 (load m1 l)) s1 := h2.kept (b := m.length) (by rw [h3]; exact hka)
        have hv : s1.value (alloc m1 (load m1 l)) = s1.value m1 := value_alloc h2 _
        have hlen2 : m.length ≤ (alloc m1 (load m1 l)).length := Nat.le_trans h1.grows hka.grows
        have hh := readHeaders_spec (base := m.length) keeps (s1.fuel (alloc m1 (load m1 l))) (h := []) hok2
          (Nat.le_refl _) hlen2 (by simp)
        rw [fuel_value, hv, h3] at hh
        rw [fuel_value, hv]
        have hnil : loadHeader (alloc m1 (load m1 l)) [] = [] := rfl
        rw [hnil] at hh
        rcases hres : readHeaders keeps (s1.value m1).fuel (alloc m1 (load m1 l)) s1 [] with ⟨m3, res⟩
        rw [hres] at hh
        cases res with
        | error e =>
          simp only at hh ⊢
          rw [hh.2]
          exact ⟨h1.trans (hka.trans (hh.1.mono hlen2)), rfl⟩
        | ok r =>
          obtain ⟨h, s3⟩ := r
          simp only at hh ⊢
          obtain ⟨k3, ok3, a3, o3, v3⟩ := hh
          rw [v3]
          simp only
          have hb := readBody_spec (h := h) ok3
          rw [a3] at hb
          have hlen3 : m.length ≤ m3.length := Nat.le_trans hlen2 k3.grows
          rcases hres : readBody h m3 s3 with ⟨m4, res⟩
          rw [hres] at hb
          cases res with
          | error e =>
            simp only at hb ⊢
            rw [hb.2]
            exact ⟨h1.trans (hka.trans ((k3.mono hlen2).trans (hb.1.mono hlen3))), rfl⟩
          | ok r =>
            obtain ⟨body, s4⟩ := r
            simp only at hb ⊢
            obtain ⟨k4, ok4, a4, o4, w4, v4⟩ := hb
            rw [v4]
            simp only
            have oc : Own m.length s.arr (alloc m1 (load m1 l)) (fresh m1 (load m1 l)) :=
              ⟨h1.grows, by simp [fresh, alloc], Nat.ne_of_gt hal⟩
            refine ⟨h1.trans (hka.trans ((k3.mono hlen2).trans (k4.mono hlen3))), ok4, a4, ⟨(oc.kept k3).kept k4,
              fun kv hkv => ⟨(o3 kv hkv).1.kept k4, (o3 kv hkv).2.kept k4⟩, o4.mono hlen3, w4, ?_, ?_⟩, ?_⟩
            · have := o4.new
              have := (oc.kept k3).there
              simp only at *
              omega
            · intro kv hkv
              have := o4.new
              have := (o3 kv hkv).1.there
              have := (o3 kv hkv).2.there
              simp only at *
              omega
            · unfold MFrame.value
              simp only
              rw [(oc.kept k3).load k4, oc.load k3, load_fresh, loadHeader_kept o3 k4]

end Stomp.Mem
