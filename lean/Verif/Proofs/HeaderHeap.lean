import Verif.Model.HeaderHeap
import Verif.Spec.Header
/-! Refinement of the header heap to independent values. -/
namespace Stomp.Heap
open Stomp.Spec

/-- The value of a header object. -/
def absHdr (H : HHeap) (s : Slice) : Multimap := pairUp (view H s)

def absFrame (H : HHeap) (o : FrameObj) : FrameVal :=
  ⟨o.command, o.hdr, o.body.map (fun b => H.bodies.getD b [])⟩

/-- The value of the whole heap. -/
def abs (H : HHeap) : Store := ⟨H.hdrs.map (absHdr H), H.frames.map (absFrame H)⟩

structure Inv (H : HHeap) : Prop where
  ok : ∀ (i : Nat) (s : Slice), H.hdrs[i]? = some s → s.arr < H.arrs.length ∧ s.len ≤ (H.arrs.getD s.arr []).length ∧ s.len % 2 = 0
  sep : ∀ (i j : Nat) (s t : Slice), H.hdrs[i]? = some s → H.hdrs[j]? = some t → i ≠ j → s.arr ≠ t.arr
  fh : ∀ (f : Nat) o, H.frames[f]? = some o → o.hdr < H.hdrs.length
  fb : ∀ (f : Nat) o b, H.frames[f]? = some o → o.body = some b → b < H.bodies.length
  fsep : ∀ (f f' : Nat) o o', H.frames[f]? = some o → H.frames[f']? = some o' → f ≠ f' → o.hdr ≠ o'.hdr
  bsep : ∀ (f f' : Nat) o o' b, H.frames[f]? = some o → H.frames[f']? = some o' → f ≠ f' →
    o.body = some b → o'.body ≠ some b

theorem modify_eq_set {α} (l : List α) (i : Nat) (f : α → α) (x : α) (h : l[i]? = some x) :
    l.modify i f = l.set i (f x) := by
  apply List.ext_getElem?
  intro j
  rw [List.getElem?_modify, List.getElem?_set]
  by_cases hij : i = j
  · subst hij
    have hi : i < l.length := (List.getElem?_eq_some_iff.1 h).1
    rw [h]; simp [hi]
  · simp [hij]

theorem getD_set_ne {α} (l : List α) (i j : Nat) (x d : α) (h : i ≠ j) :
    (l.set i x).getD j d = l.getD j d := by
  simp [List.getD, List.getElem?_set_ne h]

theorem getD_set_self {α} (l : List α) (i : Nat) (x d : α) (h : i < l.length) :
    (l.set i x).getD i d = x := by
  simp [List.getD, h]

theorem getD_append_left {α} (l : List α) (x : α) (j : Nat) (d : α) (h : j < l.length) :
    (l ++ [x]).getD j d = l.getD j d := by
  simp [List.getD, List.getElem?_append_left h]

theorem getD_append_self {α} (l : List α) (x : α) (d : α) : (l ++ [x]).getD l.length d = x := by
  simp [List.getD]

attribute [-simp] List.getD_eq_getElem?_getD

/-- In-place update of the array of header `i`. -/
theorem upd_inplace (H : HHeap) (hI : Inv H) (i : Nat) (s : Slice) (hs : H.hdrs[i]? = some s)
    (a' : List Bytes) (n' : Nat) (hn : n' ≤ a'.length) (he : n' % 2 = 0) :
    Inv { H with arrs := H.arrs.set s.arr a', hdrs := H.hdrs.set i ⟨s.arr, n'⟩ } ∧
    abs { H with arrs := H.arrs.set s.arr a', hdrs := H.hdrs.set i ⟨s.arr, n'⟩ } =
      { abs H with hdrs := (abs H).hdrs.set i (pairUp (a'.take n')) } := by
  have hi : i < H.hdrs.length := (List.getElem?_eq_some_iff.1 hs).1
  obtain ⟨o1, o2, o3⟩ := hI.ok i s hs
  have look : ∀ j t, (H.hdrs.set i ⟨s.arr, n'⟩)[j]? = some t →
      (j = i ∧ t = ⟨s.arr, n'⟩) ∨ (j ≠ i ∧ H.hdrs[j]? = some t) := by
    intro j t ht
    rw [List.getElem?_set] at ht
    by_cases hij : i = j
    · subst hij; simp [hi] at ht; left; exact ⟨rfl, ht.symm⟩
    · simp [hij] at ht; right; exact ⟨fun e => hij e.symm, ht⟩
  constructor
  · constructor
    · intro j t ht
      rcases look j t ht with ⟨_, h2⟩ | ⟨h1, h2⟩
      · subst h2
        refine ⟨by simpa using o1, ?_, he⟩
        simp only
        rw [getD_set_self _ _ _ _ o1]; exact hn
      · obtain ⟨p1, p2, p3⟩ := hI.ok j t h2
        refine ⟨by simpa using p1, ?_, p3⟩
        rw [getD_set_ne _ _ _ _ _ (hI.sep i j s t hs h2 (fun e => h1 e.symm))]; exact p2
    · intro j k t u ht hu hjk
      rcases look j t ht with ⟨h1, h2⟩ | ⟨h1, h2⟩ <;> rcases look k u hu with ⟨h3, h4⟩ | ⟨h3, h4⟩
      · exact absurd (h1.trans h3.symm) hjk
      · subst h2; exact hI.sep i k s u hs h4 (fun e => h3 e.symm)
      · subst h4; exact hI.sep j i t s h2 hs h1
      · exact hI.sep j k t u h2 h4 hjk
    · intro f o ho; have := hI.fh f o ho; simpa using this
    · exact hI.fb
    · exact hI.fsep
    · exact hI.bsep
  · unfold abs
    simp only [Store.mk.injEq]
    refine ⟨?_, rfl⟩
    apply List.ext_getElem?
    intro j
    rw [List.getElem?_map, List.getElem?_set, List.getElem?_set]
    by_cases hij : i = j
    · subst hij
      simp only [if_true, hi, List.length_map, Option.map_some, absHdr, view]
      rw [getD_set_self _ _ _ _ o1]
    · simp only [hij, if_false, List.getElem?_map]
      cases hj : H.hdrs[j]? with
      | none => rfl
      | some t =>
        simp only [Option.map_some, absHdr, view]
        rw [getD_set_ne _ _ _ _ _ (hI.sep i j s t hs hj hij)]

/-- Header `i` moves to a fresh array. -/
theorem upd_fresh (H : HHeap) (hI : Inv H) (i : Nat) (s : Slice) (hs : H.hdrs[i]? = some s)
    (a' : List Bytes) (n' : Nat) (hn : n' ≤ a'.length) (he : n' % 2 = 0) :
    Inv { H with arrs := H.arrs ++ [a'], hdrs := H.hdrs.set i ⟨H.arrs.length, n'⟩ } ∧
    abs { H with arrs := H.arrs ++ [a'], hdrs := H.hdrs.set i ⟨H.arrs.length, n'⟩ } =
      { abs H with hdrs := (abs H).hdrs.set i (pairUp (a'.take n')) } := by
  have hi : i < H.hdrs.length := (List.getElem?_eq_some_iff.1 hs).1
  have look : ∀ j t, (H.hdrs.set i ⟨H.arrs.length, n'⟩)[j]? = some t →
      (j = i ∧ t = ⟨H.arrs.length, n'⟩) ∨ (j ≠ i ∧ H.hdrs[j]? = some t) := by
    intro j t ht
    rw [List.getElem?_set] at ht
    by_cases hij : i = j
    · subst hij; simp [hi] at ht; left; exact ⟨rfl, ht.symm⟩
    · simp [hij] at ht; right; exact ⟨fun e => hij e.symm, ht⟩
  constructor
  · constructor
    · intro j t ht
      rcases look j t ht with ⟨_, h2⟩ | ⟨h1, h2⟩
      · subst h2
        refine ⟨by simp, ?_, he⟩
        simp only
        rw [getD_append_self]; exact hn
      · obtain ⟨p1, p2, p3⟩ := hI.ok j t h2
        refine ⟨by simp; omega, ?_, p3⟩
        rw [getD_append_left _ _ _ _ p1]; exact p2
    · intro j k t u ht hu hjk
      rcases look j t ht with ⟨h1, h2⟩ | ⟨h1, h2⟩ <;> rcases look k u hu with ⟨h3, h4⟩ | ⟨h3, h4⟩
      · exact absurd (h1.trans h3.symm) hjk
      · subst h2; have := (hI.ok k u h4).1; simp only; omega
      · subst h4; have := (hI.ok j t h2).1; simp only; omega
      · exact hI.sep j k t u h2 h4 hjk
    · intro f o ho; have := hI.fh f o ho; simpa using this
    · exact hI.fb
    · exact hI.fsep
    · exact hI.bsep
  · unfold abs
    simp only [Store.mk.injEq]
    refine ⟨?_, rfl⟩
    apply List.ext_getElem?
    intro j
    rw [List.getElem?_map, List.getElem?_set, List.getElem?_set]
    by_cases hij : i = j
    · subst hij
      simp only [if_true, hi, List.length_map, Option.map_some, absHdr, view]
      rw [getD_append_self]
    · simp only [hij, if_false, List.getElem?_map]
      cases hj : H.hdrs[j]? with
      | none => rfl
      | some t =>
        simp only [Option.map_some, absHdr, view]
        rw [getD_append_left _ _ _ _ (hI.ok j t hj).1]

/-- A new header on a fresh array. -/
theorem new_fresh (H : HHeap) (hI : Inv H) (a' : List Bytes) (n' : Nat) (hn : n' ≤ a'.length)
    (he : n' % 2 = 0) :
    Inv { H with arrs := H.arrs ++ [a'], hdrs := H.hdrs ++ [⟨H.arrs.length, n'⟩] } ∧
    abs { H with arrs := H.arrs ++ [a'], hdrs := H.hdrs ++ [⟨H.arrs.length, n'⟩] } =
      { abs H with hdrs := (abs H).hdrs ++ [pairUp (a'.take n')] } := by
  have look : ∀ j t, (H.hdrs ++ [⟨H.arrs.length, n'⟩])[j]? = some t →
      (j = H.hdrs.length ∧ t = ⟨H.arrs.length, n'⟩) ∨ (H.hdrs[j]? = some t) := by
    intro j t ht
    rw [List.getElem?_append] at ht
    split at ht
    · right; exact ht
    · left
      rename_i h
      cases hk : j - H.hdrs.length with
      | zero => rw [hk] at ht; simp at ht; exact ⟨by omega, ht.symm⟩
      | succ k => rw [hk] at ht; simp at ht
  constructor
  · constructor
    · intro j t ht
      rcases look j t ht with ⟨_, h2⟩ | h2
      · subst h2
        refine ⟨by simp, ?_, he⟩
        simp only
        rw [getD_append_self]; exact hn
      · obtain ⟨p1, p2, p3⟩ := hI.ok j t h2
        refine ⟨by simp; omega, ?_, p3⟩
        rw [getD_append_left _ _ _ _ p1]; exact p2
    · intro j k t u ht hu hjk
      rcases look j t ht with ⟨h1, h2⟩ | h2 <;> rcases look k u hu with ⟨h3, h4⟩ | h4
      · exact absurd (h1.trans h3.symm) hjk
      · subst h2; have := (hI.ok k u h4).1; simp only; omega
      · subst h4; have := (hI.ok j t h2).1; simp only; omega
      · exact hI.sep j k t u h2 h4 hjk
    · intro f o ho; have := hI.fh f o ho; simp; omega
    · exact hI.fb
    · exact hI.fsep
    · exact hI.bsep
  · unfold abs
    simp only [Store.mk.injEq, List.map_append, List.map_cons, List.map_nil]
    refine ⟨?_, rfl⟩
    congr 1
    · apply List.map_congr_left
      intro t ht
      obtain ⟨j, hj⟩ := List.mem_iff_getElem?.1 ht
      simp only [absHdr, view]
      rw [getD_append_left _ _ _ _ (hI.ok j t hj).1]
    · simp only [absHdr, view]
      rw [getD_append_self]

/-! ### lists of pairs -/

theorem pairUp_append (a b : List Bytes) (h : a.length % 2 = 0) : pairUp (a ++ b) = pairUp a ++ pairUp b := by
  induction a using pairUp.induct with
  | case1 => rfl
  | case2 k => simp at h
  | case3 k v rest ih =>
    simp only [List.length_cons] at h
    simp only [List.cons_append, pairUp]
    rw [ih (by omega)]

theorem pairUp_length (a : List Bytes) (h : a.length % 2 = 0) : (pairUp a).length = a.length / 2 := by
  induction a using pairUp.induct with
  | case1 => rfl
  | case2 k => simp at h
  | case3 k v rest ih =>
    simp only [List.length_cons] at h
    simp only [pairUp, List.length_cons]
    rw [ih (by omega)]; omega

theorem pairUp_getElem (a : List Bytes) (i : Nat) (h : a.length % 2 = 0) :
    (match a[i * 2]?, a[i * 2 + 1]? with
      | some k, some v => some (k, v)
      | _, _ => none) = (pairUp a)[i]? := by
  induction a using pairUp.induct generalizing i with
  | case1 => rfl
  | case2 k => simp at h
  | case3 k v rest ih =>
    simp only [List.length_cons] at h
    cases i with
    | zero => rfl
    | succ i =>
      rw [show (i + 1) * 2 = i * 2 + 1 + 1 by omega, show i * 2 + 1 + 1 + 1 = i * 2 + 1 + 1 + 1 from rfl]
      simp only [pairUp, List.getElem?_cons_succ]
      exact ih i (by omega)

theorem index_spec (a : List Bytes) (key : Bytes) (h : a.length % 2 = 0) :
    match index a key with
    | none => (pairUp a).findIdx? (fun e => e.1 = key) = none
    | some p => ∃ q v, p = 2 * q ∧ p + 2 ≤ a.length ∧ a[p + 1]? = some v ∧ (pairUp a)[q]? = some (key, v) ∧
        (pairUp a).findIdx? (fun e => e.1 = key) = some q := by
  induction a using pairUp.induct with
  | case1 => simp [index, pairUp]
  | case2 k => simp at h
  | case3 k v rest ih =>
    simp only [List.length_cons] at h
    have ih := ih (by omega)
    simp only [index, pairUp]
    by_cases hk : k = key
    · simp only [hk, if_true]
      exact ⟨0, v, rfl, by simp, rfl, rfl, by simp [List.findIdx?_cons]⟩
    · simp only [hk, if_false]
      cases hi : index rest key with
      | none =>
        rw [hi] at ih
        simp only [Option.map_none]
        simp [List.findIdx?_cons, hk]
        simpa using ih
      | some p =>
        rw [hi] at ih
        obtain ⟨q, w, h1, h2, h3, h4, h5⟩ := ih
        simp only [Option.map_some]
        refine ⟨q + 1, w, by omega, by simp; omega, ?_, by simpa using h4, ?_⟩
        · simpa using h3
        · simp [List.findIdx?_cons, hk, h5]

theorem mmFirst_of_findIdx (m : Multimap) (key : Bytes) :
    mmFirst m key = ((m.findIdx? (fun e => e.1 = key)).bind (fun q => m[q]?)).map (·.2) := by
  induction m with
  | nil => rfl
  | cons e m ih =>
    unfold mmFirst mmAll at *
    by_cases h : e.1 = key
    · simp [List.findIdx?_cons, h]
    · simp only [List.findIdx?_cons, h, decide_false]
      rw [List.filter_cons_of_neg (by simp [h]), ih]
      cases List.findIdx? (fun e => decide (e.fst = key)) m <;> simp

theorem getAllView_spec (a : List Bytes) (key : Bytes) (h : a.length % 2 = 0) :
    getAllView a key = some (mmAll (pairUp a) key) := by
  induction a using pairUp.induct with
  | case1 => rfl
  | case2 k => simp at h
  | case3 k v rest ih =>
    simp only [List.length_cons] at h
    have ih := ih (by omega)
    simp only [getAllView, pairUp, mmAll]
    by_cases hk : k = key
    · simp only [hk, if_true, ih]; simp [mmAll]
    · simp only [hk, if_false, ih]
      rw [List.filter_cons_of_neg (by simp [hk])]; rfl

/-! ### operations -/

theorem view_length (H : HHeap) (hI : Inv H) (i : Nat) (s : Slice) (hs : H.hdrs[i]? = some s) :
    (view H s).length = s.len := by
  have := (hI.ok i s hs).2.1
  unfold view; rw [List.length_take]; omega

theorem abs_hdr (H : HHeap) (i : Nat) (s : Slice) (hs : H.hdrs[i]? = some s) :
    (abs H).hdrs[i]? = some (pairUp (view H s)) := by
  simp [abs, hs, absHdr]

theorem hdr_of_lt (H : HHeap) (i : Nat) (h : i < (abs H).hdrs.length) : ∃ s, H.hdrs[i]? = some s := by
  simp [abs] at h
  exact ⟨H.hdrs[i], by simp [h]⟩

theorem take_writeAt (a : List Bytes) (n : Nat) (xs : List Bytes) (h : n + xs.length ≤ a.length) :
    (writeAt a n xs).take (n + xs.length) = a.take n ++ xs ∧ (writeAt a n xs).length = a.length := by
  unfold writeAt
  constructor
  · rw [List.take_append_of_le_length (by simp; omega), List.take_of_length_le (by simp; omega)]
  · simp; omega

theorem appendTo_spec (g : Nat → Nat → Nat) (H : HHeap) (hI : Inv H) (i : Nat) (s : Slice)
    (hs : H.hdrs[i]? = some s) (xs : List Bytes) (he : xs.length % 2 = 0) :
    ∃ H', appendTo g H i xs = some H' ∧ Inv H' ∧
      abs H' = { abs H with hdrs := (abs H).hdrs.set i (pairUp (view H s) ++ pairUp xs) } := by
  obtain ⟨o1, o2, o3⟩ := hI.ok i s hs
  have hvl := view_length H hI i s hs
  unfold appendTo
  rw [hs]
  simp only
  split
  · rename_i hfit
    obtain ⟨t1, t2⟩ := take_writeAt (H.arrs.getD s.arr []) s.len xs hfit
    obtain ⟨u1, u2⟩ := upd_inplace H hI i s hs (writeAt (H.arrs.getD s.arr []) s.len xs)
      (s.len + xs.length) (by omega) (by omega)
    refine ⟨_, rfl, u1, ?_⟩
    rw [u2, t1, pairUp_append _ _ (by unfold view at hvl; rw [hvl]; exact o3)]
    rfl
  · obtain ⟨u1, u2⟩ := upd_fresh H hI i s hs
      ((H.arrs.getD s.arr []).take s.len ++ xs ++
        List.replicate (max (s.len + xs.length) (g (H.arrs.getD s.arr []).length (s.len + xs.length)) -
          (s.len + xs.length)) [])
      (s.len + xs.length) (by simp; omega) (by omega)
    refine ⟨_, rfl, u1, ?_⟩
    rw [u2, List.take_append_of_le_length (by simp; omega), List.take_of_length_le (by simp; omega),
      pairUp_append _ _ (by unfold view at hvl; rw [hvl]; exact o3)]
    rfl

theorem add_spec (g : Nat → Nat → Nat) (H : HHeap) (hI : Inv H) (i : Nat)
    (hi : i < (abs H).hdrs.length) (k v : Bytes) :
    ∃ H', add g H i k v = some H' ∧ Inv H' ∧ abs H' = (abs H).apply (.add i k v) := by
  obtain ⟨s, hs⟩ := hdr_of_lt H i hi
  obtain ⟨H', h1, h2, h3⟩ := appendTo_spec g H hI i s hs [k, v] (by simp)
  refine ⟨H', h1, h2, ?_⟩
  rw [h3]
  simp only [Store.apply]
  rw [modify_eq_set _ _ _ _ (abs_hdr H i s hs)]
  rfl

theorem set_spec (g : Nat → Nat → Nat) (H : HHeap) (hI : Inv H) (i : Nat)
    (hi : i < (abs H).hdrs.length) (k v : Bytes) :
    ∃ H', set g H i k v = some H' ∧ Inv H' ∧ abs H' = (abs H).apply (.set i k v) := by
  obtain ⟨s, hs⟩ := hdr_of_lt H i hi
  obtain ⟨o1, o2, o3⟩ := hI.ok i s hs
  have hvl := view_length H hI i s hs
  have hidx := index_spec (view H s) k (by rw [hvl]; exact o3)
  unfold set
  rw [hs]
  simp only
  cases hix : index (view H s) k with
  | none =>
    rw [hix] at hidx
    simp only at hidx ⊢
    obtain ⟨H', h1, h2, h3⟩ := appendTo_spec g H hI i s hs [k, v] (by simp)
    refine ⟨H', h1, h2, ?_⟩
    rw [h3]
    simp only [Store.apply]
    rw [modify_eq_set _ _ _ _ (abs_hdr H i s hs)]
    unfold mmPut
    rw [hidx]
    rfl
  | some p =>
    rw [hix] at hidx
    obtain ⟨q, w, e1, e2, e3, e4, e5⟩ := hidx
    simp only
    rw [if_pos (by omega)]
    have hself : H.hdrs.set i ⟨s.arr, s.len⟩ = H.hdrs := by
      apply List.ext_getElem?
      intro j
      rw [List.getElem?_set]
      by_cases hij : i = j
      · subst hij; rw [hs]; simp [(List.getElem?_eq_some_iff.1 hs).1]
      · simp [hij]
    have hw : (writeAt (H.arrs.getD s.arr []) (p + 1) [v]).length = (H.arrs.getD s.arr []).length :=
      (take_writeAt _ _ _ (by simp; omega)).2
    obtain ⟨u1, u2⟩ := upd_inplace H hI i s hs (writeAt (H.arrs.getD s.arr []) (p + 1) [v]) s.len
      (by omega) o3
    rw [hself] at u1 u2
    refine ⟨_, rfl, u1, ?_⟩
    rw [u2]
    simp only [Store.apply]
    rw [modify_eq_set _ _ _ _ (abs_hdr H i s hs)]
    unfold mmPut
    rw [e5]
    simp only
    congr 2
    -- writing one element of the view is writing one pair
    have hview : (writeAt (H.arrs.getD s.arr []) (p + 1) [v]).take s.len = (view H s).set (p + 1) v := by
      unfold writeAt view
      apply List.ext_getElem?
      intro j
      simp only [List.getElem?_take, List.getElem?_set, List.length_take]
      by_cases hj : j < s.len
      · simp only [hj, if_true]
        by_cases hjp : p + 1 = j
        · subst hjp
          rw [if_pos rfl, if_pos (by omega), List.getElem?_append_left (by simp; omega),
            List.getElem?_append_right (by simp; omega)]
          have : p + 1 - (List.take (p + 1) (H.arrs.getD s.arr [])).length = 0 := by simp; omega
          rw [this]; rfl
        · rw [if_neg hjp]
          by_cases hlt : j < p + 1
          · rw [List.append_assoc, List.getElem?_append_left (by simp; omega), List.getElem?_take,
              if_pos hlt]
          · rw [List.getElem?_append_right (by simp; omega), List.getElem?_drop]
            congr 1; simp; omega
      · have : ¬ (p + 1 = j) := by omega
        simp [hj, this]
    rw [hview]
    subst e1
    have : ∀ (a : List Bytes) (q : Nat), a.length % 2 = 0 → (pairUp a)[q]? = some (k, w) →
        pairUp (a.set (2 * q + 1) v) = (pairUp a).set q (k, v) := by
      intro a
      induction a using pairUp.induct with
      | case1 => intro q _ h; simp [pairUp] at h
      | case2 x => intro q h; simp at h
      | case3 x y rest ih =>
        intro q h hq
        cases q with
        | zero => simp [pairUp] at hq ⊢; exact hq.1
        | succ q =>
          simp only [List.length_cons] at h
          rw [show 2 * (q + 1) + 1 = (2 * q + 1) + 1 + 1 by omega]
          simp only [List.set_cons_succ, pairUp]
          rw [ih q (by omega) (by simpa [pairUp] using hq)]
    exact this _ q (by rw [hvl]; exact o3) e4

theorem mmRemove_eraseIdx (m : Multimap) (key : Bytes) (q : Nat)
    (h : m.findIdx? (fun e => e.1 = key) = some q) : mmRemove (m.eraseIdx q) key = mmRemove m key := by
  induction m generalizing q with
  | nil => simp at h
  | cons e m ih =>
    simp only [List.findIdx?_cons] at h
    by_cases hk : e.1 = key
    · simp [hk] at h; subst h
      simp [mmRemove, hk]
    · simp [hk] at h
      obtain ⟨q', h1, h2⟩ := h
      subst h2
      have := ih q' (by simpa using h1)
      simp only [List.eraseIdx_cons_succ]
      unfold mmRemove at *
      rw [List.filter_cons_of_pos (by simp [hk]), List.filter_cons_of_pos (by simp [hk]), this]

theorem mmRemove_none (m : Multimap) (key : Bytes)
    (h : m.findIdx? (fun e => e.1 = key) = none) : mmRemove m key = m := by
  unfold mmRemove
  rw [List.filter_eq_self]
  intro e he
  simp [List.findIdx?_eq_none_iff] at h
  have := h e.1 e.2 he
  simpa using this

theorem delAt_spec (H : HHeap) (hI : Inv H) (i : Nat) (s : Slice) (hs : H.hdrs[i]? = some s) (q : Nat)
    (hq : 2 * q + 2 ≤ s.len) :
    ∃ H', delAt H i (2 * q) = some H' ∧ Inv H' ∧ H'.hdrs[i]? = some ⟨s.arr, s.len - 2⟩ ∧
      abs H' = { abs H with hdrs := (abs H).hdrs.set i ((pairUp (view H s)).eraseIdx q) } := by
  obtain ⟨o1, o2, o3⟩ := hI.ok i s hs
  have hvl := view_length H hI i s hs
  unfold delAt
  rw [hs]
  simp only
  rw [if_pos hq]
  have hlen : ((view H s).drop (2 * q + 2)).length = s.len - 2 - 2 * q := by
    rw [List.length_drop, hvl]; omega
  obtain ⟨t1, t2⟩ := take_writeAt (H.arrs.getD s.arr []) (2 * q) ((view H s).drop (2 * q + 2))
    (by omega)
  obtain ⟨u1, u2⟩ := upd_inplace H hI i s hs
    (writeAt (H.arrs.getD s.arr []) (2 * q) ((view H s).drop (2 * q + 2))) (s.len - 2)
    (by omega) (by omega)
  refine ⟨_, rfl, u1, ?_, ?_⟩
  · simp only
    rw [List.getElem?_set]
    simp [(List.getElem?_eq_some_iff.1 hs).1]
  · rw [u2]
    congr 2
    rw [show s.len - 2 = 2 * q + ((view H s).drop (2 * q + 2)).length by omega, t1]
    have e1 : (H.arrs.getD s.arr []).take (2 * q) = (view H s).take (2 * q) := by
      unfold view; rw [List.take_take]; congr 1; omega
    rw [e1]
    have : ∀ (a : List Bytes) (q : Nat), a.length % 2 = 0 → 2 * q + 2 ≤ a.length →
        pairUp (a.take (2 * q) ++ a.drop (2 * q + 2)) = (pairUp a).eraseIdx q := by
      intro a
      induction a using pairUp.induct with
      | case1 => intro q _ h; simp at h
      | case2 x => intro q h; simp at h
      | case3 x y rest ih =>
        intro q h hq
        cases q with
        | zero => simp [pairUp]
        | succ q =>
          simp only [List.length_cons] at h hq
          rw [show 2 * (q + 1) = 2 * q + 1 + 1 by omega]
          simp only [List.take_succ_cons, List.drop_succ_cons, List.cons_append, pairUp,
            List.eraseIdx_cons_succ]
          rw [ih q (by omega) (by omega)]
    rw [this (view H s) q (by omega) (by omega)]

theorem delLoop_spec (fuel : Nat) (H : HHeap) (hI : Inv H) (i : Nat) (s : Slice)
    (hs : H.hdrs[i]? = some s) (hf : s.len < fuel) (key : Bytes) :
    ∃ H', delLoop fuel H i key = some H' ∧ Inv H' ∧
      abs H' = { abs H with hdrs := (abs H).hdrs.set i (mmRemove (pairUp (view H s)) key) } := by
  induction fuel generalizing H s with
  | zero => omega
  | succ fuel ih =>
    obtain ⟨o1, o2, o3⟩ := hI.ok i s hs
    have hvl := view_length H hI i s hs
    have hidx := index_spec (view H s) key (by rw [hvl]; exact o3)
    unfold delLoop
    rw [hs]
    simp only
    cases hix : index (view H s) key with
    | none =>
      rw [hix] at hidx
      simp only at hidx ⊢
      refine ⟨H, rfl, hI, ?_⟩
      rw [mmRemove_none _ _ hidx]
      have : (abs H).hdrs.set i (pairUp (view H s)) = (abs H).hdrs := by
        apply List.ext_getElem?
        intro j
        rw [List.getElem?_set]
        by_cases hij : i = j
        · subst hij
          rw [abs_hdr H i s hs]
          have := (List.getElem?_eq_some_iff.1 (abs_hdr H i s hs)).1
          simp [this]
        · simp [hij]
      rw [this]
    | some p =>
      rw [hix] at hidx
      obtain ⟨q, w, e1, e2, e3, e4, e5⟩ := hidx
      simp only
      subst e1
      obtain ⟨H1, d1, d2, d3, d4⟩ := delAt_spec H hI i s hs q (by omega)
      rw [d1]
      simp only
      obtain ⟨H2, l1, l2, l3⟩ := ih H1 d2 _ d3 (by simp only; omega)
      refine ⟨H2, l1, l2, ?_⟩
      rw [l3, d4]
      simp only [List.set_set]
      have hv : pairUp (view H1 ⟨s.arr, s.len - 2⟩) = (pairUp (view H s)).eraseIdx q := by
        have h1 := abs_hdr H1 i _ d3
        rw [d4] at h1
        simp only at h1
        rw [List.getElem?_set] at h1
        have := (List.getElem?_eq_some_iff.1 (abs_hdr H i s hs)).1
        simp [this] at h1
        exact h1.symm
      rw [hv, mmRemove_eraseIdx _ _ _ e5]

theorem del_spec (H : HHeap) (hI : Inv H) (i : Nat) (hi : i < (abs H).hdrs.length) (k : Bytes) :
    ∃ H', del H i k = some H' ∧ Inv H' ∧ abs H' = (abs H).apply (.del i k) := by
  obtain ⟨s, hs⟩ := hdr_of_lt H i hi
  unfold del
  rw [hs]
  simp only
  obtain ⟨H', h1, h2, h3⟩ := delLoop_spec (s.len + 1) H hI i s hs (by omega) k
  refine ⟨H', h1, h2, ?_⟩
  rw [h3]
  simp only [Store.apply]
  rw [modify_eq_set _ _ _ _ (abs_hdr H i s hs)]

theorem clone_spec (H : HHeap) (hI : Inv H) (i : Nat) (hi : i < (abs H).hdrs.length) :
    ∃ H', clone H i = some H' ∧ Inv H' ∧ abs H' = (abs H).apply (.clone i) ∧
      H'.hdrs.length = H.hdrs.length + 1 ∧ H'.frames = H.frames ∧ H'.bodies = H.bodies := by
  obtain ⟨s, hs⟩ := hdr_of_lt H i hi
  have hvl := view_length H hI i s hs
  unfold clone
  rw [hs]
  simp only
  obtain ⟨u1, u2⟩ := new_fresh H hI (view H s) s.len (by omega) (hI.ok i s hs).2.2
  refine ⟨_, rfl, u1, ?_, by simp, rfl, rfl⟩
  rw [u2]
  simp only [Store.apply]
  have : (abs H).hdrs.getD i [] = pairUp (view H s) := by
    simp [List.getD, abs_hdr H i s hs]
  rw [this, List.take_of_length_le (by omega)]

theorem len_spec (H : HHeap) (hI : Inv H) (i : Nat) :
    len H i = (abs H).hdrs[i]?.map List.length := by
  unfold len
  cases hs : H.hdrs[i]? with
  | none => simp [abs, hs]
  | some s =>
    rw [abs_hdr H i s hs]
    have := view_length H hI i s hs
    simp only [Option.map_some, Option.some.injEq]
    rw [pairUp_length _ (by rw [this]; exact (hI.ok i s hs).2.2), this]

theorem getAt_spec (H : HHeap) (hI : Inv H) (i idx : Nat) :
    getAt H i idx = (abs H).hdrs[i]?.bind (fun m => m[idx]?) := by
  unfold getAt
  cases hs : H.hdrs[i]? with
  | none => simp [abs, hs]
  | some s =>
    rw [abs_hdr H i s hs]
    have := view_length H hI i s hs
    simp only [Option.bind_some]
    exact pairUp_getElem _ idx (by rw [this]; exact (hI.ok i s hs).2.2)

theorem contains_spec (H : HHeap) (hI : Inv H) (i : Nat) (key : Bytes) :
    contains H i key = (abs H).hdrs[i]?.map (fun m => mmFirst m key) := by
  unfold contains
  cases hs : H.hdrs[i]? with
  | none => simp [abs, hs]
  | some s =>
    rw [abs_hdr H i s hs]
    have hvl := view_length H hI i s hs
    have hidx := index_spec (view H s) key (by rw [hvl]; exact (hI.ok i s hs).2.2)
    simp only [Option.map_some]
    rw [mmFirst_of_findIdx]
    cases hix : index (view H s) key with
    | none => rw [hix] at hidx; simp only at hidx ⊢; rw [hidx]; rfl
    | some p =>
      rw [hix] at hidx
      obtain ⟨q, w, e1, e2, e3, e4, e5⟩ := hidx
      simp only [e3, e5, e4, Option.bind_some, Option.map_some]

theorem getAll_spec (H : HHeap) (hI : Inv H) (i : Nat) (key : Bytes) :
    getAll H i key = (abs H).hdrs[i]?.map (fun m => mmAll m key) := by
  unfold getAll
  cases hs : H.hdrs[i]? with
  | none => simp [abs, hs]
  | some s =>
    rw [abs_hdr H i s hs]
    have hvl := view_length H hI i s hs
    simp only [Option.map_some]
    exact getAllView_spec _ _ (by rw [hvl]; exact (hI.ok i s hs).2.2)

theorem addHeaderLoop_spec (g : Nat → Nat → Nat) (fuel k : Nat) (H : HHeap) (hI : Inv H) (i j : Nat)
    (hi : i < (abs H).hdrs.length) (hij : i ≠ j) (m : Multimap) (hm : (abs H).hdrs[j]? = some m)
    (hf : m.length < fuel + k) (hk : k ≤ m.length) :
    ∃ H', addHeaderLoop g fuel k H i j = some H' ∧ Inv H' ∧
      abs H' = { abs H with hdrs := (abs H).hdrs.modify i (· ++ m.drop k) } := by
  induction fuel generalizing k H with
  | zero => omega
  | succ fuel ih =>
    unfold addHeaderLoop
    rw [len_spec H hI j, hm]
    simp only [Option.map_some]
    by_cases hkm : k < m.length
    · rw [if_pos hkm, getAt_spec H hI j k, hm]
      simp only [Option.bind_some, List.getElem?_eq_getElem hkm]
      obtain ⟨H1, a1, a2, a3⟩ := add_spec g H hI i hi m[k].1 m[k].2
      rw [a1]
      simp only
      have hm1 : (abs H1).hdrs[j]? = some m := by
        rw [a3]; simp only [Store.apply]
        rw [List.getElem?_modify]
        simp [hij, hm]
      have hi1 : i < (abs H1).hdrs.length := by rw [a3]; simpa [Store.apply] using hi
      obtain ⟨H2, b1, b2, b3⟩ := ih (k + 1) H1 a2 hi1 hm1 (by omega) (by omega)
      refine ⟨H2, b1, b2, ?_⟩
      rw [b3, a3]
      simp only [Store.apply]
      congr 1
      apply List.ext_getElem?
      intro l
      simp only [List.getElem?_modify]
      by_cases hil : i = l
      · subst hil
        cases hh : (abs H).hdrs[i]? with
        | none => rfl
        | some x =>
          simp only [if_true]
          show some (x ++ [(m[k].fst, m[k].snd)] ++ List.drop (k + 1) m) = some (x ++ List.drop k m)
          rw [List.append_assoc, List.drop_eq_getElem_cons hkm]
          rfl
      · simp [hil]
    · rw [if_neg hkm]
      refine ⟨H, rfl, hI, ?_⟩
      rw [List.drop_of_length_le (by omega)]
      have : (abs H).hdrs.modify i (· ++ ([] : Multimap)) = (abs H).hdrs := by
        apply List.ext_getElem?
        intro l
        rw [List.getElem?_modify]
        cases (abs H).hdrs[l]? <;> simp
      rw [this]

theorem addHeader_spec (g : Nat → Nat → Nat) (H : HHeap) (hI : Inv H) (i j : Nat)
    (hi : i < (abs H).hdrs.length) (hj : j < (abs H).hdrs.length) (hij : i ≠ j) :
    ∃ H', addHeader g H i j = some H' ∧ Inv H' ∧ abs H' = (abs H).apply (.addHeader i j) := by
  unfold addHeader
  rw [len_spec H hI j]
  have hm : (abs H).hdrs[j]? = some (abs H).hdrs[j] := List.getElem?_eq_getElem hj
  rw [hm]
  simp only [Option.map_some]
  obtain ⟨H', h1, h2, h3⟩ := addHeaderLoop_spec g ((abs H).hdrs[j].length + 1) 0 H hI i j hi hij _ hm
    (by omega) (by omega)
  refine ⟨H', h1, h2, ?_⟩
  rw [h3]
  simp [Store.apply, List.getD, hm]

theorem newHeader_spec (g : Nat → Nat → Nat) (H : HHeap) (hI : Inv H) (es : List Bytes) :
    ∃ H', newHeader g H es = some H' ∧ Inv H' ∧ abs H' = (abs H).apply (.newHeader es) := by
  -- `append` with an odd number of elements breaks evenness in between, so treat both steps at once
  unfold newHeader
  simp only
  obtain ⟨n1, n2⟩ := new_fresh H hI [] 0 (by simp) rfl
  simp only [List.take_nil, pairUp] at n2
  have hs : ({ H with arrs := H.arrs ++ [[]], hdrs := H.hdrs ++ [⟨H.arrs.length, 0⟩] } : HHeap).hdrs[H.hdrs.length]?
      = some ⟨H.arrs.length, 0⟩ := by simp
  by_cases he : es.length % 2 = 0
  · obtain ⟨H', a1, a2, a3⟩ := appendTo_spec g _ n1 H.hdrs.length _ hs es he
    rw [a1]
    simp only
    rw [if_neg (by omega)]
    refine ⟨H', rfl, a2, ?_⟩
    rw [a3, n2]
    have hl : H.hdrs.length = (abs H).hdrs.length := by simp [abs]
    simp only [Store.apply]
    rw [hl]
    congr 1
    simp [view, pairUp]
  · -- odd: first append `es`, then the padding
    let c := max es.length (g 0 es.length)
    let H2 : HHeap := { H with
      arrs := H.arrs ++ [[]] ++ [es ++ List.replicate (c - es.length) []]
      hdrs := H.hdrs ++ [⟨H.arrs.length + 1, es.length⟩] }
    have hne : es ≠ [] := by intro e; subst e; simp at he
    have hlen : 0 < es.length := List.length_pos_iff.2 hne
    have hg0 : (H.arrs ++ [([] : List Bytes)]).getD H.arrs.length [] = [] := getD_append_self _ _ _
    have ha : appendTo g { H with arrs := H.arrs ++ [[]], hdrs := H.hdrs ++ [⟨H.arrs.length, 0⟩] }
        H.hdrs.length es = some H2 := by
      unfold appendTo
      rw [hs]
      simp only [hg0]
      rw [if_neg (by simp; omega)]
      simp only [List.take_nil, List.nil_append, Nat.zero_add, List.length_nil, Option.some.injEq]
      simp only [H2, c]
      simp
    rw [ha]
    simp only
    rw [if_pos he]
    -- second append
    have hs2 : H2.hdrs[H.hdrs.length]? = some ⟨H.arrs.length + 1, es.length⟩ := by simp [H2]
    have hg2 : H2.arrs.getD (H.arrs.length + 1) [] = es ++ List.replicate (c - es.length) [] := by
      have := getD_append_self (H.arrs ++ [[]]) (es ++ List.replicate (c - es.length) []) []
      simpa [H2] using this
    -- invariants of the heap with the extra empty array
    obtain ⟨m1, m2⟩ := new_fresh H hI [] 0 (by simp) rfl
    have hI1 : Inv { H with arrs := H.arrs ++ [[]] } := by
      constructor
      · intro j t ht
        obtain ⟨p1, p2, p3⟩ := hI.ok j t ht
        refine ⟨by simp; omega, ?_, p3⟩
        rw [getD_append_left _ _ _ _ p1]; exact p2
      · exact hI.sep
      · exact hI.fh
      · exact hI.fb
      · exact hI.fsep
      · exact hI.bsep
    have habs1 : abs { H with arrs := H.arrs ++ [[]] } = abs H := by
      unfold abs
      simp only [Store.mk.injEq]
      refine ⟨?_, rfl⟩
      apply List.map_congr_left
      intro t ht
      obtain ⟨j, hj⟩ := List.mem_iff_getElem?.1 ht
      simp only [absHdr, view]
      rw [getD_append_left _ _ _ _ (hI.ok j t hj).1]
    have hpair : pairUp (es ++ [[]]) = pairUp es := by
      have : ∀ l : List Bytes, l.length % 2 ≠ 0 → pairUp (l ++ [[]]) = pairUp l := by
        intro l
        induction l using pairUp.induct with
        | case1 => intro h; simp at h
        | case2 x => intro _; rfl
        | case3 x y rest ih =>
          intro h
          simp only [List.length_cons] at h
          simp only [List.cons_append, pairUp]
          rw [ih (by omega)]
      exact this es he
    unfold appendTo
    rw [hs2]
    simp only [hg2]
    split
    · rename_i hfit
      simp only [List.length_singleton, List.length_append, List.length_replicate] at hfit
      obtain ⟨t1, t2⟩ := take_writeAt (es ++ List.replicate (c - es.length) []) es.length [[]]
        (by simp; omega)
      obtain ⟨u1, u2⟩ := new_fresh _ hI1
        (writeAt (es ++ List.replicate (c - es.length) []) es.length [[]]) (es.length + 1)
        (by rw [t2]; simp; omega) (by omega)
      have heq : ({ H2 with
          arrs := H2.arrs.set (H.arrs.length + 1)
            (writeAt (es ++ List.replicate (c - es.length) []) es.length [[]])
          hdrs := H2.hdrs.set H.hdrs.length ⟨H.arrs.length + 1, es.length + [([] : Bytes)].length⟩ } : HHeap) =
          { H with
            arrs := H.arrs ++ [[]] ++ [writeAt (es ++ List.replicate (c - es.length) []) es.length [[]]]
            hdrs := H.hdrs ++ [⟨(H.arrs ++ [[]]).length, es.length + 1⟩] } := by
        simp only [H2]
        simp only [HHeap.mk.injEq, and_true]
        constructor
        · rw [List.set_append_right _ _ (by simp)]
          simp
        · rw [List.set_append_right _ _ (by simp)]
          simp
      refine ⟨_, rfl, ?_, ?_⟩
      · rw [heq]; exact u1
      · rw [heq, u2, habs1]
        simp only [Store.apply]
        have t1' : (writeAt (es ++ List.replicate (c - es.length) []) es.length [[]]).take (es.length + 1)
          = es ++ [[]] := by
          have := t1
          simp only [List.length_singleton] at this
          rw [this, List.take_append_of_le_length (by omega), List.take_length]
        rw [t1', hpair]
    · rename_i hfit
      simp only [List.length_singleton, List.length_append, List.length_replicate] at hfit
      have hI2 : Inv { H with arrs := H.arrs ++ [[]] ++ [es ++ List.replicate (c - es.length) []] } := by
        constructor
        · intro j t ht
          obtain ⟨p1, p2, p3⟩ := hI1.ok j t ht
          refine ⟨by simp at p1 ⊢; omega, ?_, p3⟩
          rw [getD_append_left _ _ _ _ p1]; exact p2
        · exact hI.sep
        · exact hI.fh
        · exact hI.fb
        · exact hI.fsep
        · exact hI.bsep
      have habs2 : abs { H with arrs := H.arrs ++ [[]] ++ [es ++ List.replicate (c - es.length) []] } = abs H := by
        rw [← habs1]
        unfold abs
        simp only [Store.mk.injEq]
        refine ⟨?_, rfl⟩
        apply List.map_congr_left
        intro t ht
        obtain ⟨j, hj⟩ := List.mem_iff_getElem?.1 ht
        simp only [absHdr, view]
        rw [getD_append_left _ _ _ _ (hI1.ok j t hj).1]
      simp only [List.length_append, List.length_replicate, List.length_singleton]
      have hcl : es.length + (c - es.length) = es.length := by omega
      let c2 := max (es.length + 1) (g (es.length + (c - es.length)) (es.length + 1))
      obtain ⟨u1, u2⟩ := new_fresh _ hI2
        (List.take es.length (es ++ List.replicate (c - es.length) []) ++ [[]] ++
          List.replicate (c2 - (es.length + 1)) []) (es.length + 1)
        (by simp) (by omega)
      have heq : ({ H2 with
          arrs := H2.arrs ++ [List.take es.length (es ++ List.replicate (c - es.length) []) ++ [[]] ++
            List.replicate (c2 - (es.length + 1)) []]
          hdrs := H2.hdrs.set H.hdrs.length ⟨H2.arrs.length, es.length + 1⟩ } : HHeap) =
          { H with
            arrs := H.arrs ++ [[]] ++ [es ++ List.replicate (c - es.length) []] ++
              [List.take es.length (es ++ List.replicate (c - es.length) []) ++ [[]] ++
                List.replicate (c2 - (es.length + 1)) []]
            hdrs := H.hdrs ++
              [⟨(H.arrs ++ [[]] ++ [es ++ List.replicate (c - es.length) []]).length, es.length + 1⟩] } := by
        simp only [H2]
        simp only [HHeap.mk.injEq, and_true, true_and]
        rw [List.set_append_right _ _ (by simp)]
        simp
      refine ⟨_, rfl, ?_, ?_⟩
      · rw [heq]; exact u1
      · rw [heq, u2, habs2]
        simp only [Store.apply]
        rw [List.take_append_of_le_length (by simp), List.take_of_length_le (by simp),
          List.take_append_of_le_length (by omega), List.take_length, hpair]

theorem newFrameLoop_spec (g : Nat → Nat → Nat) (es : List Bytes) (H : HHeap) (hI : Inv H) (i : Nat)
    (m : Multimap) (hm : (abs H).hdrs[i]? = some m) (he : es.length % 2 = 0) :
    ∃ H', newFrameLoop g H i es = some H' ∧ Inv H' ∧
      abs H' = { abs H with hdrs := (abs H).hdrs.set i (m ++ pairUp es) } := by
  induction es using pairUp.induct generalizing H m with
  | case1 =>
    refine ⟨H, rfl, hI, ?_⟩
    simp only [pairUp, List.append_nil]
    have : (abs H).hdrs.set i m = (abs H).hdrs := by
      apply List.ext_getElem?
      intro j
      rw [List.getElem?_set]
      by_cases hij : i = j
      · subst hij; rw [hm]; simp [(List.getElem?_eq_some_iff.1 hm).1]
      · simp [hij]
    rw [this]
  | case2 x => simp at he
  | case3 k v rest ih =>
    simp only [List.length_cons] at he
    unfold newFrameLoop
    have hi : i < (abs H).hdrs.length := (List.getElem?_eq_some_iff.1 hm).1
    obtain ⟨H1, a1, a2, a3⟩ := add_spec g H hI i hi k v
    rw [a1]
    simp only
    have e1 : (abs H1).hdrs = (abs H).hdrs.set i (m ++ [(k, v)]) := by
      rw [a3]; simp only [Store.apply]; rw [modify_eq_set _ _ _ _ hm]
    obtain ⟨H2, b1, b2, b3⟩ := ih H1 a2 (m ++ [(k, v)]) (by rw [e1, List.getElem?_set]; simp [hi])
      (by omega)
    refine ⟨H2, b1, b2, ?_⟩
    rw [b3, e1]
    have e2 : (abs H1).frames = (abs H).frames := by rw [a3]; rfl
    simp only [pairUp, List.set_set, e2, List.append_assoc, List.singleton_append]

theorem newFrame_spec (g : Nat → Nat → Nat) (H : HHeap) (hI : Inv H) (c : Bytes) (es : List Bytes)
    (he : es.length % 2 = 0) :
    ∃ H', newFrame g H c es = some H' ∧ Inv H' ∧ abs H' = (abs H).apply (.newFrame c es) := by
  unfold newFrame
  simp only
  obtain ⟨n1, n2⟩ := new_fresh H hI [] 0 (by simp) rfl
  simp only [List.take_nil, pairUp] at n2
  have hl : H.hdrs.length = (abs H).hdrs.length := by simp [abs]
  have look : ∀ (f : Nat) o, (H.frames ++ [⟨c, H.hdrs.length, none⟩])[f]? = some o →
      (f = H.frames.length ∧ o = ⟨c, H.hdrs.length, none⟩) ∨ H.frames[f]? = some o := by
    intro f o ho
    rw [List.getElem?_append] at ho
    split at ho
    · right; exact ho
    · left
      cases hk : f - H.frames.length with
      | zero => rw [hk] at ho; simp at ho; exact ⟨by omega, ho.symm⟩
      | succ k => rw [hk] at ho; simp at ho
  have hI1 : Inv { H with arrs := H.arrs ++ [[]], hdrs := H.hdrs ++ [⟨H.arrs.length, 0⟩],
                          frames := H.frames ++ [⟨c, H.hdrs.length, none⟩] } := by
    constructor
    · exact n1.ok
    · exact n1.sep
    · intro f o ho
      rcases look f o ho with ⟨_, h⟩ | h
      · subst h; simp
      · have := hI.fh f o h; simp; omega
    · intro f o b ho hb
      rcases look f o ho with ⟨_, h⟩ | h
      · subst h; cases hb
      · exact hI.fb f o b h hb
    · intro f f' o o' ho ho' hff
      rcases look f o ho with ⟨h1, h2⟩ | h2 <;> rcases look f' o' ho' with ⟨h3, h4⟩ | h4
      · omega
      · subst h2; have := hI.fh f' o' h4; simp only; omega
      · subst h4; have := hI.fh f o h2; simp only; omega
      · exact hI.fsep f f' o o' h2 h4 hff
    · intro f f' o o' b ho ho' hff hb
      rcases look f o ho with ⟨h1, h2⟩ | h2 <;> rcases look f' o' ho' with ⟨h3, h4⟩ | h4
      · omega
      · subst h2; cases hb
      · subst h4; simp
      · exact hI.bsep f f' o o' b h2 h4 hff hb
  have habs : abs { H with arrs := H.arrs ++ [[]], hdrs := H.hdrs ++ [⟨H.arrs.length, 0⟩],
                           frames := H.frames ++ [⟨c, H.hdrs.length, none⟩] } =
      ⟨(abs H).hdrs ++ [[]], (abs H).frames ++ [⟨c, (abs H).hdrs.length, none⟩]⟩ := by
    have h1 := congrArg Store.hdrs n2
    unfold abs at h1 ⊢
    simp only [Store.mk.injEq] at h1 ⊢
    refine ⟨h1, ?_⟩
    simp [absFrame]
  obtain ⟨H', a1, a2, a3⟩ := newFrameLoop_spec g es _ hI1 H.hdrs.length []
    (by rw [habs, hl]; simp) he
  refine ⟨H', a1, a2, ?_⟩
  rw [a3, habs]
  simp only [Store.apply, List.nil_append, Store.mk.injEq]
  refine ⟨?_, trivial⟩
  rw [hl]; simp

theorem cloneFrame_spec (H : HHeap) (hI : Inv H) (f : Nat) (hf : f < (abs H).frames.length) :
    ∃ H', cloneFrame H f = some H' ∧ Inv H' ∧ abs H' = (abs H).apply (.cloneFrame f) := by
  have hf' : f < H.frames.length := by simpa [abs] using hf
  have ho : H.frames[f]? = some H.frames[f] := List.getElem?_eq_getElem hf'
  unfold cloneFrame
  rw [ho]
  generalize H.frames[f] = o at ho
  simp only
  have hh := hI.fh f o ho
  have hl : H.hdrs.length = (abs H).hdrs.length := by simp [abs]
  obtain ⟨H1, c1, c2, c3, c4, c5, c6⟩ := clone_spec H hI o.hdr (by rw [← hl]; exact hh)
  rw [c1]
  simp only
  have hav : (abs H).frames[f]? = some (absFrame H o) := by simp [abs, ho]
  have look : ∀ (x : FrameObj) (k : Nat) q, (H1.frames ++ [x])[k]? = some q →
      (k = H.frames.length ∧ q = x) ∨ H.frames[k]? = some q := by
    intro x k q hq
    rw [c5, List.getElem?_append] at hq
    split at hq
    · right; exact hq
    · left
      cases hk : k - H.frames.length with
      | zero => rw [hk] at hq; simp at hq; exact ⟨by omega, hq.symm⟩
      | succ k => rw [hk] at hq; simp at hq
  cases hb : o.body with
  | none =>
    simp only
    refine ⟨_, rfl, ?_, ?_⟩
    · constructor
      · exact c2.ok
      · exact c2.sep
      · intro k q hq
        rcases look _ k q hq with ⟨_, h⟩ | h
        · subst h; simp only; omega
        · have := hI.fh k q h; simp only; omega
      · intro k q b hq hqb
        rcases look _ k q hq with ⟨_, h⟩ | h
        · subst h; cases hqb
        · simp only [c6]; exact hI.fb k q b h hqb
      · intro k k' q q' hq hq' hkk
        rcases look _ k q hq with ⟨h1, h2⟩ | h2 <;> rcases look _ k' q' hq' with ⟨h3, h4⟩ | h4
        · omega
        · subst h2; have := hI.fh k' q' h4; simp only; omega
        · subst h4; have := hI.fh k q h2; simp only; omega
        · exact hI.fsep k k' q q' h2 h4 hkk
      · intro k k' q q' b hq hq' hkk hqb
        rcases look _ k q hq with ⟨h1, h2⟩ | h2 <;> rcases look _ k' q' hq' with ⟨h3, h4⟩ | h4
        · omega
        · subst h2; cases hqb
        · subst h4; simp
        · exact hI.bsep k k' q q' b h2 h4 hkk hqb
    · simp only [Store.apply, hav]
      have h1 := congrArg Store.hdrs c3
      simp only [Store.apply] at h1
      unfold abs at h1 ⊢
      simp only [Store.mk.injEq] at h1 ⊢
      refine ⟨h1, ?_⟩
      rw [c5]
      simp only [List.map_append, List.map_cons, List.map_nil, absFrame, hb, Option.map_none, c6]
      simp
      intro a _
      rfl
  | some b =>
    simp only
    have hbl := hI.fb f o b ho hb
    refine ⟨_, rfl, ?_, ?_⟩
    · constructor
      · exact c2.ok
      · exact c2.sep
      · intro k q hq
        rcases look _ k q hq with ⟨_, h⟩ | h
        · subst h; simp only; omega
        · have := hI.fh k q h; simp only; omega
      · intro k q b' hq hqb
        rcases look _ k q hq with ⟨_, h⟩ | h
        · subst h; simp at hqb; subst hqb; simp
        · have := hI.fb k q b' h hqb; simp [c6]; omega
      · intro k k' q q' hq hq' hkk
        rcases look _ k q hq with ⟨h1, h2⟩ | h2 <;> rcases look _ k' q' hq' with ⟨h3, h4⟩ | h4
        · omega
        · subst h2; have := hI.fh k' q' h4; simp only; omega
        · subst h4; have := hI.fh k q h2; simp only; omega
        · exact hI.fsep k k' q q' h2 h4 hkk
      · intro k k' q q' b' hq hq' hkk hqb
        rcases look _ k q hq with ⟨h1, h2⟩ | h2 <;> rcases look _ k' q' hq' with ⟨h3, h4⟩ | h4
        · omega
        · subst h2
          simp at hqb
          intro e
          have := hI.fb k' q' b' h4 e
          rw [c6] at hqb; omega
        · subst h4
          intro e
          have := hI.fb k q b' h2 hqb
          simp at e
          rw [c6] at e; omega
        · exact hI.bsep k k' q q' b' h2 h4 hkk hqb
    · simp only [Store.apply, hav]
      have h1 := congrArg Store.hdrs c3
      simp only [Store.apply] at h1
      unfold abs at h1 ⊢
      simp only [Store.mk.injEq] at h1 ⊢
      refine ⟨h1, ?_⟩
      rw [c5, c6]
      simp only [List.map_append, List.map_cons, List.map_nil]
      congr 1
      · apply List.map_congr_left
        intro q hq
        obtain ⟨k, hk⟩ := List.mem_iff_getElem?.1 hq
        unfold absFrame
        simp only
        congr 1
        cases hqb : q.body with
        | none => rfl
        | some b' =>
          simp only [Option.map_some]
          rw [getD_append_left _ _ _ _ (hI.fb k q b' hk hqb)]
      · unfold absFrame
        simp only [Option.map_some, hb, getD_append_self, List.length_map]

theorem frames_set_look (H : HHeap) (f : Nat) (x : FrameObj) (hf : f < H.frames.length) (k : Nat) (q : FrameObj)
    (hq : (H.frames.set f x)[k]? = some q) : (k = f ∧ q = x) ∨ (k ≠ f ∧ H.frames[k]? = some q) := by
  rw [List.getElem?_set] at hq
  by_cases hkf : f = k
  · subst hkf; simp [hf] at hq; left; exact ⟨rfl, hq.symm⟩
  · simp [hkf] at hq; right; exact ⟨fun e => hkf e.symm, hq⟩

theorem setCommand_spec (H : HHeap) (hI : Inv H) (f : Nat) (hf : f < (abs H).frames.length) (c : Bytes) :
    ∃ H', setCommand H f c = some H' ∧ Inv H' ∧ abs H' = (abs H).apply (.setCommand f c) := by
  have hf' : f < H.frames.length := by simpa [abs] using hf
  have ho : H.frames[f]? = some H.frames[f] := List.getElem?_eq_getElem hf'
  unfold setCommand
  rw [ho]
  generalize H.frames[f] = o at ho
  simp only
  have look := frames_set_look H f { o with command := c } hf'
  refine ⟨_, rfl, ?_, ?_⟩
  · constructor
    · exact hI.ok
    · exact hI.sep
    · intro k q hq
      rcases look k q hq with ⟨h1, h2⟩ | ⟨h1, h2⟩
      · subst h2; exact hI.fh f o ho
      · exact hI.fh k q h2
    · intro k q b hq hqb
      rcases look k q hq with ⟨h1, h2⟩ | ⟨h1, h2⟩
      · subst h2; exact hI.fb f o b ho hqb
      · exact hI.fb k q b h2 hqb
    · intro k k' q q' hq hq' hkk
      rcases look k q hq with ⟨h1, h2⟩ | ⟨h1, h2⟩ <;> rcases look k' q' hq' with ⟨h3, h4⟩ | ⟨h3, h4⟩
      · omega
      · subst h2; exact hI.fsep f k' o q' ho h4 (by omega)
      · subst h4; exact hI.fsep k f q o h2 ho h1
      · exact hI.fsep k k' q q' h2 h4 hkk
    · intro k k' q q' b hq hq' hkk hqb
      rcases look k q hq with ⟨h1, h2⟩ | ⟨h1, h2⟩ <;> rcases look k' q' hq' with ⟨h3, h4⟩ | ⟨h3, h4⟩
      · omega
      · subst h2; exact hI.bsep f k' o q' b ho h4 (by omega) hqb
      · subst h4; exact hI.bsep k f q o b h2 ho h1 hqb
      · exact hI.bsep k k' q q' b h2 h4 hkk hqb
  · have hav : (abs H).frames[f]? = some (absFrame H o) := by simp [abs, ho]
    simp only [Store.apply]
    rw [modify_eq_set _ _ _ _ hav]
    unfold abs
    simp only [Store.mk.injEq]
    refine ⟨rfl, ?_⟩
    rw [List.map_set]
    rfl

theorem setBody_spec (H : HHeap) (hI : Inv H) (f : Nat) (hf : f < (abs H).frames.length) (b : Bytes) :
    ∃ H', setBody H f b = some H' ∧ Inv H' ∧ abs H' = (abs H).apply (.setBody f b) := by
  have hf' : f < H.frames.length := by simpa [abs] using hf
  have ho : H.frames[f]? = some H.frames[f] := List.getElem?_eq_getElem hf'
  unfold setBody
  rw [ho]
  generalize H.frames[f] = o at ho
  simp only
  have look := frames_set_look H f { o with body := some H.bodies.length } hf'
  refine ⟨_, rfl, ?_, ?_⟩
  · constructor
    · exact hI.ok
    · exact hI.sep
    · intro k q hq
      rcases look k q hq with ⟨h1, h2⟩ | ⟨h1, h2⟩
      · subst h2; exact hI.fh f o ho
      · exact hI.fh k q h2
    · intro k q b' hq hqb
      rcases look k q hq with ⟨h1, h2⟩ | ⟨h1, h2⟩
      · subst h2; simp at hqb; subst hqb; simp
      · have := hI.fb k q b' h2 hqb; simp; omega
    · intro k k' q q' hq hq' hkk
      rcases look k q hq with ⟨h1, h2⟩ | ⟨h1, h2⟩ <;> rcases look k' q' hq' with ⟨h3, h4⟩ | ⟨h3, h4⟩
      · omega
      · subst h2; exact hI.fsep f k' o q' ho h4 (by omega)
      · subst h4; exact hI.fsep k f q o h2 ho h1
      · exact hI.fsep k k' q q' h2 h4 hkk
    · intro k k' q q' b' hq hq' hkk hqb
      rcases look k q hq with ⟨h1, h2⟩ | ⟨h1, h2⟩ <;> rcases look k' q' hq' with ⟨h3, h4⟩ | ⟨h3, h4⟩
      · omega
      · subst h2; simp at hqb; subst hqb
        intro e; have := hI.fb k' q' _ h4 e; omega
      · subst h4; intro e; simp at e; subst e
        have := hI.fb k q _ h2 hqb; omega
      · exact hI.bsep k k' q q' b' h2 h4 hkk hqb
  · have hav : (abs H).frames[f]? = some (absFrame H o) := by simp [abs, ho]
    simp only [Store.apply]
    rw [modify_eq_set _ _ _ _ hav]
    unfold abs
    simp only [Store.mk.injEq]
    refine ⟨rfl, ?_⟩
    rw [List.map_set]
    congr 1
    · apply List.map_congr_left
      intro q hq
      obtain ⟨k, hk⟩ := List.mem_iff_getElem?.1 hq
      unfold absFrame
      simp only
      congr 1
      cases hqb : q.body with
      | none => rfl
      | some b' =>
        simp only [Option.map_some]
        rw [getD_append_left _ _ _ _ (hI.fb k q b' hk hqb)]
    · simp only [absFrame, Option.map_some, getD_append_self]

theorem pokeBody_spec (H : HHeap) (hI : Inv H) (f p : Nat) (x : UInt8)
    (hf : (abs H).legal (.pokeBody f p x)) :
    ∃ H', pokeBody H f p x = some H' ∧ Inv H' ∧ abs H' = (abs H).apply (.pokeBody f p x) := by
  have hf : p < (((abs H).frames[f]?.bind (·.body)).getD []).length := hf
  obtain ⟨v, bv, h1, h2, h3⟩ : ∃ v b, (abs H).frames[f]? = some v ∧ v.body = some b ∧ p < b.length := by
    cases hv : (abs H).frames[f]? with
    | none => simp [hv] at hf
    | some v =>
      rw [hv] at hf
      simp only [Option.bind_some] at hf
      cases hb : v.body with
      | none => simp [hb] at hf
      | some b => rw [hb] at hf; exact ⟨v, b, rfl, hb, hf⟩
  have hf' : f < H.frames.length := by
    have := (List.getElem?_eq_some_iff.1 h1).1; simpa [abs] using this
  have ho : H.frames[f]? = some H.frames[f] := List.getElem?_eq_getElem hf'
  generalize H.frames[f] = o at ho
  have hav : (abs H).frames[f]? = some (absFrame H o) := by simp [abs, ho]
  rw [hav] at h1
  simp at h1
  subst h1
  cases hb : o.body with
  | none => simp [absFrame, hb] at h2
  | some b =>
    simp [absFrame, hb] at h2
    unfold pokeBody
    rw [ho]
    simp only [hb]
    have hbv : H.bodies.getD b [] = bv := by simpa [List.getD] using h2
    have hbl := hI.fb f o b ho hb
    rw [hbv, if_pos h3]
    refine ⟨_, rfl, ?_, ?_⟩
    · constructor
      · exact hI.ok
      · exact hI.sep
      · exact hI.fh
      · intro k q b' hq hqb; simpa using hI.fb k q b' hq hqb
      · exact hI.fsep
      · exact hI.bsep
    · simp only [Store.apply]
      rw [modify_eq_set _ _ _ _ hav]
      unfold abs
      simp only [Store.mk.injEq]
      refine ⟨rfl, ?_⟩
      apply List.ext_getElem?
      intro k
      rw [List.getElem?_map, List.getElem?_set, List.getElem?_map]
      by_cases hk : f = k
      · subst hk
        simp only [ho, Option.map_some, List.length_map, hf', if_true, absFrame, hb, hbv]
        rw [getD_set_self _ _ _ _ hbl]
      · simp only [hk, if_false]
        cases hq : H.frames[k]? with
        | none => rfl
        | some q =>
          simp only [Option.map_some, absFrame]
          congr 2
          cases hqb : q.body with
          | none => rfl
          | some b' =>
            simp only [Option.map_some]
            have : b ≠ b' := by
              intro e; subst e
              exact hI.bsep f k o q b ho hq hk hb hqb
            rw [getD_set_ne _ _ _ _ _ this]

/-- The specification's name for an operation. -/
def Op.spec : Op → StoreOp
  | .newHeader es => .newHeader es
  | .add h k v => .add h k v
  | .set h k v => .set h k v
  | .del h k => .del h k
  | .addHeader h h' => .addHeader h h'
  | .clone h => .clone h
  | .newFrame c es => .newFrame c es
  | .cloneFrame f => .cloneFrame f
  | .setCommand f c => .setCommand f c
  | .setBody f b => .setBody f b
  | .pokeBody f p x => .pokeBody f p x

theorem exec_spec (g : Nat → Nat → Nat) (H : HHeap) (hI : Inv H) (op : Op)
    (hl : (abs H).legal op.spec) :
    ∃ H', exec g H op = some H' ∧ Inv H' ∧ abs H' = (abs H).apply op.spec := by
  cases op with
  | newHeader es => exact newHeader_spec g H hI es
  | add h k v => exact add_spec g H hI h hl k v
  | set h k v => exact set_spec g H hI h hl k v
  | del h k => exact del_spec H hI h hl k
  | addHeader h h' => exact addHeader_spec g H hI h h' hl.1 hl.2.1 hl.2.2
  | clone h =>
    obtain ⟨H', h1, h2, h3, _⟩ := clone_spec H hI h hl
    exact ⟨H', h1, h2, h3⟩
  | newFrame c es => exact newFrame_spec g H hI c es hl
  | cloneFrame f => exact cloneFrame_spec H hI f hl
  | setCommand f c => exact setCommand_spec H hI f hl c
  | setBody f b => exact setBody_spec H hI f hl b
  | pokeBody f p x => exact pokeBody_spec H hI f p x hl

theorem inv_empty : Inv HHeap.empty := by
  constructor <;> intros <;> simp_all [HHeap.empty]

end Stomp.Heap
