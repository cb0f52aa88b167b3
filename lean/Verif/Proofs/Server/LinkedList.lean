import Verif.Spec.Lists
/-! # Loops over a list while elements are taken out -/
namespace Stomp.Server
open Stomp

theorem nextIn_mid {pre t : List (Nat × Nat)} {e v : Nat} (h : ((pre ++ (e, v) :: t).map (·.1)).Nodup) : nextIn (pre ++ (e, v) :: t) e = t.head?.map (·.1) := by
  induction pre with
  | nil => simp [nextIn]
  | cons a pre ih =>
    simp only [List.cons_append, List.map_cons, List.nodup_cons] at h
    have : a.1 ≠ e := fun he => h.1 (by rw [he]; simp)
    simp only [List.cons_append, nextIn, this, if_false]
    exact ih h.2

theorem valueIn_mid {pre t : List (Nat × Nat)} {e v : Nat} (h : ((pre ++ (e, v) :: t).map (·.1)).Nodup) : valueIn (pre ++ (e, v) :: t) e = some v := by
  induction pre with
  | nil => simp [valueIn]
  | cons a pre ih =>
    simp only [List.cons_append, List.map_cons, List.nodup_cons] at h
    have : a.1 ≠ e := fun he => h.1 (by rw [he]; simp)
    simp only [List.cons_append, valueIn, this, if_false]
    exact ih h.2

theorem remove_mid {pre t : List (Nat × Nat)} {e v : Nat} (h : ((pre ++ (e, v) :: t).map (·.1)).Nodup) : (pre ++ (e, v) :: t).filter (·.1 ≠ e) = pre ++ t := by
  rw [List.map_append, List.map_cons, List.nodup_append] at h
  obtain ⟨_, h2, h3⟩ := h
  rw [List.nodup_cons] at h2
  rw [List.filter_append, List.filter_cons]
  have a : pre.filter (·.1 ≠ e) = pre := List.filter_eq_self.2 fun x hx => decide_eq_true (h3 _ (List.mem_map_of_mem hx) _ List.mem_cons_self)
  have b : t.filter (·.1 ≠ e) = t := List.filter_eq_self.2 fun x hx => decide_eq_true fun he => h2.1 (List.mem_map.2 ⟨x, hx, he⟩)
  rw [a, b]; simp

/-- `s` with these elements in its list. -/
def SList.withElems (s : SList) (l : List (Nat × Nat)) : SList := { s with subs := { s.subs with elems := l } }

theorem remove_eq {s : SList} {pre t : List (Nat × Nat)} {e v : Nat} (he : s.subs.elems = pre ++ (e, v) :: t) (h : (s.subs.elems.map (·.1)).Nodup) :
    ({ s with subs := s.subs.remove e } : SList) = s.withElems (pre ++ t) := by
  simp only [LList.remove, SList.withElems]
  rw [he] at h ⊢
  rw [remove_mid h]

theorem nodup_mid {pre t : List (Nat × Nat)} {e v : Nat} (h : ((pre ++ (e, v) :: t).map (·.1)).Nodup) : ((pre ++ t).map (·.1)).Nodup :=
  h.sublist ((List.Sublist.append (.refl _) (List.sublist_cons_self _ _)).map _)

theorem ackFrom_eq (k : Nat) : ∀ (t pre : List (Nat × Nat)) (n : Nat) (s : SList), s.subs.elems = pre ++ t → (s.subs.elems.map (·.1)).Nodup → t.length ≤ n →
    ∃ t', s.ackFrom k n (t.head?.map (·.1)) = some (s.withElems (pre ++ t'), (ackLoop s.heap k (t.map (·.2))).2) ∧ t'.map (·.2) = (ackLoop s.heap k (t.map (·.2))).1 ∧ t'.Sublist t
  | [], pre, n, s, he, hn, hl => ⟨[], by
      have : s.withElems pre = s := by rw [List.append_nil] at he; unfold SList.withElems; rw [← he]
      cases n <;> simp [SList.ackFrom, ackLoop, this], rfl, .refl _⟩
  | (e, i) :: t, pre, 0, s, he, hn, hl => by simp at hl
  | (e, i) :: t, pre, n + 1, s, he, hn, hl => by
    have hn' := hn
    rw [he] at hn'
    have h1 : s.subs.next e = t.head?.map (·.1) := by unfold LList.next; rw [he]; exact nextIn_mid hn'
    have h2 : s.subs.value e = some i := by unfold LList.value; rw [he]; exact valueIn_mid hn'
    have hl' : t.length ≤ n := by simp only [List.length_cons] at hl; omega
    simp only [List.head?_cons, Option.map_some, SList.ackFrom, h1, h2, List.map_cons, ackLoop]
    cases ha : (deref s.heap i).isAckedBy k with
    | none => exact ⟨(e, i) :: t, by simp [SList.withElems, ← he], by simp, .refl _⟩
    | some b =>
      cases b with
      | true =>
        obtain ⟨t', a1, a2, a3⟩ := ackFrom_eq k t pre n (s.withElems (pre ++ t)) rfl (nodup_mid hn') hl'
        refine ⟨t', ?_, ?_, a3.trans (List.sublist_cons_self _ _)⟩
        · rw [remove_eq he hn]
          simp only [a1, Option.map_some]
          rfl
        · exact a2
      | false =>
        obtain ⟨t', a1, a2, a3⟩ := ackFrom_eq k t (pre ++ [(e, i)]) n s (by rw [he]; simp) hn hl'
        refine ⟨(e, i) :: t', ?_, ?_, a3.cons_cons _⟩
        · simp only [a1]; simp
        · simp only [List.map_cons, a2]

theorem nackFrom_eq (k : Nat) : ∀ (t pre : List (Nat × Nat)) (n : Nat) (s : SList), s.subs.elems = pre ++ t → (s.subs.elems.map (·.1)).Nodup → t.length ≤ n →
    ∃ t', s.nackFrom k n (t.head?.map (·.1)) = some (s.withElems (pre ++ t'), (nackLoop s.heap k (t.map (·.2))).2) ∧ t'.map (·.2) = (nackLoop s.heap k (t.map (·.2))).1 ∧ t'.Sublist t
  | [], pre, n, s, he, hn, hl => ⟨[], by
      have : s.withElems pre = s := by rw [List.append_nil] at he; unfold SList.withElems; rw [← he]
      cases n <;> simp [SList.nackFrom, nackLoop, this], rfl, .refl _⟩
  | (e, i) :: t, pre, 0, s, he, hn, hl => by simp at hl
  | (e, i) :: t, pre, n + 1, s, he, hn, hl => by
    have hn' := hn
    rw [he] at hn'
    have h1 : s.subs.next e = t.head?.map (·.1) := by unfold LList.next; rw [he]; exact nextIn_mid hn'
    have h2 : s.subs.value e = some i := by unfold LList.value; rw [he]; exact valueIn_mid hn'
    have hl' : t.length ≤ n := by simp only [List.length_cons] at hl; omega
    simp only [List.head?_cons, Option.map_some, SList.nackFrom, h1, h2, List.map_cons, nackLoop]
    cases ha : (deref s.heap i).isNackedBy k with
    | true =>
      obtain ⟨t', a1, a2, a3⟩ := nackFrom_eq k t pre n (s.withElems (pre ++ t)) rfl (nodup_mid hn') hl'
      refine ⟨t', ?_, ?_, a3.trans (List.sublist_cons_self _ _)⟩
      · rw [remove_eq he hn]
        simp only [a1, Option.map_some, if_true]
        rfl
      · simp only [if_true]; exact a2
    | false =>
      obtain ⟨t', a1, a2, a3⟩ := nackFrom_eq k t (pre ++ [(e, i)]) n s (by rw [he]; simp) hn hl'
      refine ⟨(e, i) :: t', ?_, ?_, a3.cons_cons _⟩
      · simp only [a1]; simp
      · simp [a2]

theorem removeFrom_eq (i : Nat) : ∀ (t pre : List (Nat × Nat)) (n : Nat) (s : SList), s.subs.elems = pre ++ t → (s.subs.elems.map (·.1)).Nodup → t.length ≤ n →
    (i ∉ t.map (·.2) ∧ s.removeFrom i n (t.head?.map (·.1)) = some s) ∨
    ∃ e l r, t = l ++ (e, i) :: r ∧ i ∉ l.map (·.2) ∧ s.removeFrom i n (t.head?.map (·.1)) = some ((s.withElems (pre ++ (l ++ r))).mark i false)
  | [], pre, n, s, he, hn, hl => .inl ⟨by simp, by cases n <;> simp [SList.removeFrom]⟩
  | (e, j) :: t, pre, 0, s, he, hn, hl => by simp at hl
  | (e, j) :: t, pre, n + 1, s, he, hn, hl => by
    have hn' := hn
    rw [he] at hn'
    have h1 : s.subs.next e = t.head?.map (·.1) := by unfold LList.next; rw [he]; exact nextIn_mid hn'
    have h2 : s.subs.value e = some j := by unfold LList.value; rw [he]; exact valueIn_mid hn'
    have hl' : t.length ≤ n := by simp only [List.length_cons] at hl; omega
    simp only [List.head?_cons, Option.map_some, SList.removeFrom, h1, h2]
    by_cases hj : j = i
    · subst hj
      right
      refine ⟨e, [], t, rfl, by simp, ?_⟩
      rw [if_pos rfl, remove_eq he hn]; rfl
    · rw [if_neg (fun x => hj (Option.some.inj x))]
      rcases removeFrom_eq i t (pre ++ [(e, j)]) n s (by rw [he]; simp) hn hl' with ⟨a, b⟩ | ⟨e', l, r, a, b, c⟩
      · exact .inl ⟨by simp only [List.map_cons, List.mem_cons, not_or]; exact ⟨fun x => hj x.symm, a⟩, b⟩
      · refine .inr ⟨e', (e, j) :: l, r, by rw [a]; rfl, by simp only [List.map_cons, List.mem_cons, not_or]; exact ⟨fun x => hj x.symm, b⟩, ?_⟩
        rw [c]; simp

theorem findFrom_eq (id : Bytes) : ∀ (t pre : List (Nat × Nat)) (n : Nat) (s : SList), s.subs.elems = pre ++ t → (s.subs.elems.map (·.1)).Nodup → t.length ≤ n →
    ((∀ j ∈ t.map (·.2), (deref s.heap j).id ≠ id) ∧ s.findFrom id n (t.head?.map (·.1)) = some (none, s)) ∨
    ∃ e i l r, t = l ++ (e, i) :: r ∧ (∀ j ∈ l.map (·.2), (deref s.heap j).id ≠ id) ∧ (deref s.heap i).id = id ∧ s.findFrom id n (t.head?.map (·.1)) = some (some i, s.withElems (pre ++ (l ++ r)))
  | [], pre, n, s, he, hn, hl => .inl ⟨by simp, by cases n <;> simp [SList.findFrom]⟩
  | (e, j) :: t, pre, 0, s, he, hn, hl => by simp at hl
  | (e, j) :: t, pre, n + 1, s, he, hn, hl => by
    have hn' := hn
    rw [he] at hn'
    have h1 : s.subs.next e = t.head?.map (·.1) := by unfold LList.next; rw [he]; exact nextIn_mid hn'
    have h2 : s.subs.value e = some j := by unfold LList.value; rw [he]; exact valueIn_mid hn'
    have hl' : t.length ≤ n := by simp only [List.length_cons] at hl; omega
    simp only [List.head?_cons, Option.map_some, SList.findFrom, h1, h2]
    by_cases hj : (deref s.heap j).id = id
    · right
      refine ⟨e, j, [], t, rfl, by simp, hj, ?_⟩
      rw [if_pos hj, remove_eq he hn]; rfl
    · rw [if_neg hj]
      rcases findFrom_eq id t (pre ++ [(e, j)]) n s (by rw [he]; simp) hn hl' with ⟨a, b⟩ | ⟨e', i, l, r, a, b, c, d⟩
      · exact .inl ⟨by simp only [List.map_cons, List.mem_cons, forall_eq_or_imp]; exact ⟨hj, a⟩, b⟩
      · refine .inr ⟨e', i, (e, j) :: l, r, by rw [a]; rfl, by simp only [List.map_cons, List.mem_cons, forall_eq_or_imp]; exact ⟨hj, b⟩, c, ?_⟩
        rw [d]; simp

theorem forEachFrom_eq : ∀ (t pre : List (Nat × Nat)) (n : Nat) (s : SList), s.subs.elems = pre ++ t → (s.subs.elems.map (·.1)).Nodup → t.length ≤ n →
    ∃ l, s.forEachFrom n (t.head?.map (·.1)) = some l ∧ l.map (·.1) = t.map (·.2) ∧ ∀ k x, l[k]? = some x → x.2 = decide (k + 1 = t.length)
  | [], pre, n, s, he, hn, hl => ⟨[], by cases n <;> simp [SList.forEachFrom], rfl, by simp⟩
  | (e, j) :: t, pre, 0, s, he, hn, hl => by simp at hl
  | (e, j) :: t, pre, n + 1, s, he, hn, hl => by
    have hn' := hn
    rw [he] at hn'
    have h1 : s.subs.next e = t.head?.map (·.1) := by unfold LList.next; rw [he]; exact nextIn_mid hn'
    have h2 : s.subs.value e = some j := by unfold LList.value; rw [he]; exact valueIn_mid hn'
    have hl' : t.length ≤ n := by simp only [List.length_cons] at hl; omega
    obtain ⟨l, a, b, c⟩ := forEachFrom_eq t (pre ++ [(e, j)]) n s (by rw [he]; simp) hn hl'
    refine ⟨(j, (t.head?.map (·.1)).isNone) :: l, ?_, by simp [b], ?_⟩
    · simp [SList.forEachFrom, h1, h2, a]
    · intro k x hx
      cases k with
      | zero =>
        simp only [List.getElem?_cons_zero, Option.some.injEq] at hx
        subst hx
        cases t <;> simp
      | succ k =>
        rw [List.getElem?_cons_succ] at hx
        rw [c k x hx, List.length_cons]
        simp

/-- The modes `IsAckedBy` knows. -/
theorem isAckedBy_spec (x : Sub) (n : Nat) : (Spec.KnownMode x.ack → x.isAckedBy n = some (Spec.Acks x.ack x.msgId n)) ∧ (¬ Spec.KnownMode x.ack → x.isAckedBy n = none) := by
  unfold Sub.isAckedBy Spec.Acks Spec.KnownMode
  have e1 : ackAuto = b!"auto" := rfl
  have e2 : ackClient = b!"client" := rfl
  have e3 : ackClientIndividual = b!"client-individual" := rfl
  rw [e1, e2, e3]
  generalize x.ack = a
  constructor
  · rintro (h | h | h) <;> subst h
    · simp
    · simp
    · rw [if_neg (by decide), if_neg (by decide), if_pos rfl]
      rw [show (b!"client-individual" == b!"auto") = false by decide, show (b!"client-individual" == b!"client") = false by decide,
        show (b!"client-individual" == b!"client-individual") = true by decide]
      simp only [Bool.false_or, Bool.false_and, Bool.true_and, Option.some.injEq]
      by_cases h : n = x.msgId
      · rw [decide_eq_true h, h]; exact (beq_self_eq_true _).symm
      · rw [decide_eq_false h]; exact (beq_eq_false_iff_ne.2 fun e => h e.symm).symm
  · intro h
    rw [if_neg (fun x => h (.inl x)), if_neg (fun x => h (.inr (.inl x))), if_neg (fun x => h (.inr (.inr x)))]

theorem ackLoop_spec (heap : List Sub) (n : Nat) : ∀ l, ((ackLoop heap n l).2.2 = true ↔ ∃ j ∈ l, ¬ Spec.KnownMode (deref heap j).ack) ∧
    ((ackLoop heap n l).2.2 = false → (ackLoop heap n l).1 = l.filter (fun j => !Spec.Acks (deref heap j).ack (deref heap j).msgId n) ∧ (ackLoop heap n l).2.1 = l.filter (fun j => Spec.Acks (deref heap j).ack (deref heap j).msgId n))
  | [] => by simp [ackLoop]
  | i :: l => by
    obtain ⟨h1, h2⟩ := ackLoop_spec heap n l
    obtain ⟨s1, s2⟩ := isAckedBy_spec (deref heap i) n
    by_cases hm : Spec.KnownMode (deref heap i).ack
    · have hs := s1 hm
      cases ha : Spec.Acks (deref heap i).ack (deref heap i).msgId n <;>
      · rw [ha] at hs
        simp only [ackLoop, hs]
        constructor
        · rw [h1]; simp [hm]
        · intro hp
          obtain ⟨a, b⟩ := h2 hp
          simp [ha, a, b]
    · have hs := s2 hm
      simp only [ackLoop, hs]
      exact ⟨by simp [hm], by simp⟩

theorem nackLoop_spec (heap : List Sub) (n : Nat) : ∀ l, nackLoop heap n l = (l.filter (fun j => !((deref heap j).msgId == n)), l.filter (fun j => (deref heap j).msgId == n))
  | [] => rfl
  | i :: l => by
    rw [nackLoop, nackLoop_spec heap n l]
    unfold Sub.isNackedBy
    by_cases h : (deref heap i).msgId = n
    · simp [h]
    · simp [h, show ¬ n = (deref heap i).msgId from fun x => h x.symm]

end Stomp.Server
