import Verif.Spec.Codec
/-! # Lemmas on the value-level header functions -/
namespace Stomp
open Spec

theorem firstValue_nil (q : Bytes) : firstValue [] q = none := rfl

theorem firstValue_cons (k v : Bytes) (h : Header) (q : Bytes) :
    firstValue ((k, v) :: h) q = if k = q then some v else firstValue h q := by
  unfold firstValue
  by_cases hk : k = q <;> simp [List.find?, hk]

theorem firstValue_append (h h' : Header) (q : Bytes) :
    firstValue (h ++ h') q = (firstValue h q).or (firstValue h' q) := by
  induction h with
  | nil => simp [firstValue_nil]
  | cons e h ih =>
    obtain ⟨k, v⟩ := e
    rw [List.cons_append, firstValue_cons, firstValue_cons, ih]
    split <;> simp

theorem firstValue_add (h : Header) (k v q : Bytes) :
    firstValue (h.add k v) q = (firstValue h q).or (if k = q then some v else none) := by
  unfold Header.add
  rw [firstValue_append, firstValue_cons, firstValue_nil]

theorem firstValue_set (h : Header) (k v q : Bytes) :
    firstValue (h.set k v) q = if k = q then some v else firstValue h q := by
  induction h with
  | nil => simp [Header.set, firstValue_cons, firstValue_nil]
  | cons e h ih =>
    obtain ⟨k', v'⟩ := e
    simp only [Header.set]
    split
    · rename_i hk
      subst hk
      rw [firstValue_cons, firstValue_cons]
      split <;> rfl
    · rename_i hk
      rw [firstValue_cons, firstValue_cons, ih]
      by_cases h1 : k' = q
      · rw [if_pos h1, if_pos h1, if_neg (fun h2 => hk (h1.trans h2.symm))]
      · rw [if_neg h1, if_neg h1]

theorem firstValue_del (h : Header) (k q : Bytes) :
    firstValue (h.del k) q = if k = q then none else firstValue h q := by
  induction h with
  | nil => simp [Header.del, firstValue_nil]
  | cons e h ih =>
    obtain ⟨k', v'⟩ := e
    simp only [Header.del]
    split
    · rename_i hk
      subst hk
      rw [ih, firstValue_cons]
      split <;> rfl
    · rename_i hk
      rw [firstValue_cons, firstValue_cons, ih]
      by_cases h1 : k' = q
      · rw [if_pos h1, if_pos h1, if_neg (fun h2 => hk (h1.trans h2.symm))]
      · rw [if_neg h1, if_neg h1]

theorem contains_eq (h : Header) (q : Bytes) : h.contains q = firstValue h q := by
  induction h with
  | nil => rfl
  | cons e h ih =>
    obtain ⟨k, v⟩ := e
    rw [firstValue_cons, ← ih]; rfl

theorem get_eq (h : Header) (q : Bytes) : h.get q = (firstValue h q).getD [] := by
  unfold Header.get; rw [contains_eq]

theorem names_add (h : Header) (k v : Bytes) (hk : k ≠ []) (hh : ∀ e ∈ h, e.1 ≠ []) :
    ∀ e ∈ h.add k v, e.1 ≠ [] := by
  intro e he
  unfold Header.add at he
  rcases List.mem_append.1 he with he | he
  · exact hh e he
  · simp at he; subst he; exact hk

theorem names_set (h : Header) (k v : Bytes) (hk : k ≠ []) (hh : ∀ e ∈ h, e.1 ≠ []) :
    ∀ e ∈ h.set k v, e.1 ≠ [] := by
  induction h with
  | nil => intro e he; simp [Header.set] at he; subst he; exact hk
  | cons x h ih =>
    obtain ⟨k', v'⟩ := x
    intro e he
    simp only [Header.set] at he
    split at he
    · rcases List.mem_cons.1 he with rfl | he
      · exact hh (k', v') (by simp)
      · exact hh e (by simp [he])
    · rcases List.mem_cons.1 he with rfl | he
      · exact hh (k', v') (by simp)
      · exact ih (fun e he => hh e (by simp [he])) e he

theorem mem_del (h : Header) (k : Bytes) (e : Bytes × Bytes) : e ∈ h.del k ↔ e ∈ h ∧ e.1 ≠ k := by
  induction h with
  | nil => simp [Header.del]
  | cons x h ih =>
    obtain ⟨k', v'⟩ := x
    simp only [Header.del]
    split
    · rename_i hk
      rw [ih]
      constructor
      · rintro ⟨h1, h2⟩; exact ⟨by simp [h1], h2⟩
      · rintro ⟨h1, h2⟩
        rcases List.mem_cons.1 h1 with rfl | h1
        · exact absurd hk h2
        · exact ⟨h1, h2⟩
    · rename_i hk
      rw [List.mem_cons, ih]
      constructor
      · rintro (rfl | ⟨h1, h2⟩)
        · exact ⟨by simp, hk⟩
        · exact ⟨by simp [h1], h2⟩
      · rintro ⟨h1, h2⟩
        rcases List.mem_cons.1 h1 with rfl | h1
        · exact Or.inl rfl
        · exact Or.inr ⟨h1, h2⟩

theorem names_del (h : Header) (k : Bytes) (hh : ∀ e ∈ h, e.1 ≠ []) : ∀ e ∈ h.del k, e.1 ≠ [] :=
  fun e he => hh e ((mem_del h k e).1 he).1

/-- `Set` replaces the value of the first entry with the key or appends one entry; the rest is unchanged. -/
theorem set_of_firstValue_none (h : Header) (k v : Bytes) (hn : firstValue h k = none) : h.set k v = h ++ [(k, v)] := by
  induction h with
  | nil => rfl
  | cons e h ih =>
    obtain ⟨k', v'⟩ := e
    rw [firstValue_cons] at hn
    split at hn
    · cases hn
    · rename_i hk
      simp only [Header.set, if_neg hk, ih hn, List.cons_append]

theorem del_of_firstValue_none (h : Header) (k : Bytes) (hn : firstValue h k = none) : h.del k = h := by
  induction h with
  | nil => rfl
  | cons e h ih =>
    obtain ⟨k', v'⟩ := e
    rw [firstValue_cons] at hn
    split at hn
    · cases hn
    · rename_i hk
      simp only [Header.del, if_neg hk, ih hn]

theorem firstValue_none_iff (h : Header) (k : Bytes) : firstValue h k = none ↔ ∀ e ∈ h, e.1 ≠ k := by
  unfold firstValue
  rw [Option.map_eq_none_iff, List.find?_eq_none]
  simp

end Stomp
