import Verif.Model.AMap
/-! # Lemmas on association-list maps -/
namespace Stomp.AMap
variable {β : Type}

theorem get?_set (m : AMap β) (k : Bytes) (v : β) (q : Bytes) :
    (m.set k v).get? q = if k = q then some v else m.get? q := by
  induction m with
  | nil => simp [set, get?]
  | cons e m ih =>
    obtain ⟨k', v'⟩ := e
    simp only [set]
    split
    · rename_i h; subst h
      simp only [get?]
      split <;> rfl
    · rename_i h
      simp only [get?, ih]
      by_cases h1 : k' = q
      · rw [if_pos h1, if_pos h1, if_neg (fun h2 => h (h1.trans h2.symm))]
      · rw [if_neg h1, if_neg h1]

theorem get?_del (m : AMap β) (k q : Bytes) : (m.del k).get? q = if k = q then none else m.get? q := by
  induction m with
  | nil => simp [del, get?]
  | cons e m ih =>
    obtain ⟨k', v'⟩ := e
    simp only [del]
    split
    · rename_i h; subst h
      rw [ih]; simp only [get?]
      split <;> rfl
    · rename_i h
      simp only [get?, ih]
      by_cases h1 : k' = q
      · rw [if_pos h1, if_pos h1, if_neg (fun h2 => h (h1.trans h2.symm))]
      · rw [if_neg h1, if_neg h1]

theorem list_set {γ : Type} (m : AMap (List γ)) (k : Bytes) (v : List γ) (q : Bytes) :
    (m.set k v).list q = if k = q then v else m.list q := by
  unfold list; rw [get?_set]; split <;> rfl

theorem mem_of_get? {m : AMap β} {k : Bytes} {v : β} (h : m.get? k = some v) : (k, v) ∈ m := by
  induction m with
  | nil => simp [get?] at h
  | cons e m ih =>
    obtain ⟨k', v'⟩ := e
    simp only [get?] at h
    split at h
    · rename_i hk; cases h; subst hk; simp
    · simp [ih h]

/-- The keys of a map. -/
def keys (m : AMap β) : List Bytes := List.map Prod.fst m

theorem get?_none_iff (m : AMap β) (k : Bytes) : m.get? k = none ↔ k ∉ m.keys := by
  induction m with
  | nil => simp [get?, keys]
  | cons e m ih =>
    obtain ⟨k', v'⟩ := e
    simp only [get?]
    split
    · rename_i h; subst h; simp [keys]
    · rename_i h
      rw [ih]
      unfold keys
      rw [List.map_cons, List.mem_cons, not_or]
      exact ⟨fun hh => ⟨fun e => h e.symm, hh⟩, fun hh => hh.2⟩

theorem keys_set (m : AMap β) (k : Bytes) (v : β) :
    (m.set k v).keys = if k ∈ m.keys then m.keys else m.keys ++ [k] := by
  induction m with
  | nil => simp [set, keys]
  | cons e m ih =>
    obtain ⟨k', v'⟩ := e
    simp only [set]
    split
    · rename_i h; subst h; simp [keys]
    · rename_i h
      show k' :: keys (set m k v) = _
      rw [ih]
      by_cases hm : k ∈ keys m
      · rw [if_pos hm, if_pos (show k ∈ keys ((k', v') :: m) from List.mem_cons_of_mem _ hm)]; rfl
      · have h2 : k ∉ keys ((k', v') :: m) := by
          unfold keys; rw [List.map_cons, List.mem_cons, not_or]; exact ⟨fun e => h e.symm, hm⟩
        rw [if_neg hm, if_neg h2]; rfl

theorem keys_nodup_set (m : AMap β) (k : Bytes) (v : β) (h : m.keys.Nodup) : (m.set k v).keys.Nodup := by
  rw [keys_set]
  split
  · exact h
  · rename_i hk
    rw [List.nodup_append]
    refine ⟨h, by simp, ?_⟩
    intro a ha b hb
    rw [List.mem_singleton] at hb
    subst hb
    intro e; subst e; exact hk ha

theorem keys_del (m : AMap β) (k : Bytes) : (m.del k).keys = m.keys.filter (fun x => decide (x ≠ k)) := by
  induction m with
  | nil => rfl
  | cons e m ih =>
    obtain ⟨k', v'⟩ := e
    simp only [del]
    show _ = List.filter _ (k' :: keys m)
    rw [List.filter_cons]
    split
    · rename_i h
      rw [if_neg (by simp [h]), ih]
    · rename_i h
      rw [if_pos (by simp [h]), ← ih]; rfl

theorem keys_nodup_del (m : AMap β) (k : Bytes) (h : m.keys.Nodup) : (m.del k).keys.Nodup := by
  rw [keys_del]; exact h.filter _

theorem get?_of_mem {m : AMap β} (hn : m.keys.Nodup) {k : Bytes} {v : β} (h : (k, v) ∈ m) : m.get? k = some v := by
  induction m with
  | nil => simp at h
  | cons e m ih =>
    obtain ⟨k', v'⟩ := e
    have hn' := List.nodup_cons.1 (show (k' :: keys m).Nodup from hn)
    simp only [get?]
    rcases List.mem_cons.1 h with h | h
    · cases h; rw [if_pos rfl]
    · rw [if_neg, ih hn'.2 h]
      intro e; subst e
      exact hn'.1 (List.mem_map_of_mem (f := Prod.fst) h)

theorem mem_del {m : AMap β} {k : Bytes} {e : Bytes × β} (h : e ∈ m.del k) : e ∈ m := by
  induction m with
  | nil => exact h
  | cons x m ih =>
    obtain ⟨k', v'⟩ := x
    simp only [del] at h
    split at h
    · exact List.mem_cons_of_mem _ (ih h)
    · rcases List.mem_cons.1 h with h | h
      · subst h; simp
      · exact List.mem_cons_of_mem _ (ih h)

theorem mem_set {m : AMap β} {k : Bytes} {v : β} {e : Bytes × β} (h : e ∈ m.set k v) : e = (k, v) ∨ e ∈ m := by
  induction m with
  | nil => simp [set] at h; exact Or.inl h
  | cons x m ih =>
    obtain ⟨k', v'⟩ := x
    simp only [set] at h
    split at h
    · rename_i hk; subst hk
      rcases List.mem_cons.1 h with h | h
      · exact Or.inl h
      · exact Or.inr (List.mem_cons_of_mem _ h)
    · rcases List.mem_cons.1 h with h | h
      · subst h; exact Or.inr (by simp)
      · rcases ih h with h | h
        · exact Or.inl h
        · exact Or.inr (List.mem_cons_of_mem _ h)

/-- Sum of a weight over all lists of a map. -/
def sum {γ : Type} (w : List γ → Nat) (m : AMap (List γ)) : Nat := (m.map (fun e => w e.2)).sum

theorem sum_set {γ : Type} (w : List γ → Nat) (hw : w [] = 0) (m : AMap (List γ)) (k : Bytes) (v : List γ) :
    sum w (m.set k v) + w (m.list k) = sum w m + w v := by
  unfold list
  induction m with
  | nil => simp [set, sum, get?, hw]
  | cons e m ih =>
    obtain ⟨k', v'⟩ := e
    simp only [set, get?]
    unfold sum at ih ⊢
    split
    · simp only [List.map_cons, List.sum_cons, Option.getD_some]; omega
    · simp only [List.map_cons, List.sum_cons]; omega

theorem le_sum_list {γ : Type} (w : List γ → Nat) (hw : w [] = 0) (m : AMap (List γ)) (k : Bytes) :
    w (m.list k) ≤ sum w m := by
  unfold list
  induction m with
  | nil => simp [get?, hw]
  | cons e m ih =>
    obtain ⟨k', v'⟩ := e
    simp only [get?]
    unfold sum at ih ⊢
    simp only [List.map_cons, List.sum_cons]
    split
    · simp only [Option.getD_some]; omega
    · omega

end Stomp.AMap
