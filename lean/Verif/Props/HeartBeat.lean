import Verif.Model.HeartBeat
import Verif.Proofs.Bytes
/-! # C10: heart-beat header values are parsed exactly -/
namespace Stomp

theorem all_digits_iff (a : Bytes) : a.all isDigit = true ↔ ∀ c ∈ a, 48 ≤ c.toNat ∧ c.toNat ≤ 57 := by
  simp only [List.all_eq_true]
  constructor
  · intro h c hc; exact (isDigit_iff c).1 (h c hc)
  · intro h c hc; exact (isDigit_iff c).2 (h c hc)

theorem comma_not_digits (a : Bytes) (h : ∀ c ∈ a, 48 ≤ c.toNat ∧ c.toNat ≤ 57) : (44 : UInt8) ∉ a := by
  intro hc
  have := h 44 hc
  revert this; decide

theorem indexByte_some_mem (c : UInt8) (s : Bytes) (i : Nat) (h : indexByte c s = some i) :
    s = s.take i ++ c :: s.drop (i + 1) := by
  induction s generalizing i with
  | nil => simp [indexByte] at h
  | cons b bs ih =>
    simp only [indexByte] at h
    split at h
    · rename_i hb; simp at h; subst h; simp [hb]
    · cases hi : indexByte c bs with
      | none => simp [hi] at h
      | some j =>
        simp [hi] at h
        subst h
        have := ih j hi
        simp only [List.take_succ_cons, List.drop_succ_cons, List.cons_append]
        rw [← this]

theorem matchPair_iff (ok : Nat → Bool) (s : Bytes) :
    matchPair ok s = true ↔ ∃ a b, s = a ++ 44 :: b ∧ (∀ c ∈ a, 48 ≤ c.toNat ∧ c.toNat ≤ 57) ∧
      (∀ c ∈ b, 48 ≤ c.toNat ∧ c.toNat ≤ 57) ∧ ok a.length = true ∧ ok b.length = true := by
  constructor
  · intro h
    unfold matchPair at h
    split at h
    · cases h
    · rename_i i hi
      simp only [Bool.and_eq_true] at h
      obtain ⟨⟨⟨h1, h2⟩, h3⟩, h4⟩ := h
      exact ⟨_, _, indexByte_some_mem _ _ _ hi, (all_digits_iff _).1 h1, (all_digits_iff _).1 h3, h2, h4⟩
  · rintro ⟨a, b, rfl, ha, hb, h1, h2⟩
    unfold matchPair
    have hi := indexByte_append 44 a b (comma_not_digits a ha)
    rw [hi]
    simp [(all_digits_iff a).2 ha, (all_digits_iff b).2 hb, h1, h2]

theorem splitOn_plain (sep : UInt8) (s : Bytes) (h : sep ∉ s) : splitOn sep s = [s] := by
  induction s with
  | nil => rfl
  | cons b bs ih =>
    simp only [List.mem_cons, not_or] at h
    simp only [splitOn]
    rw [if_neg (fun e => h.1 e.symm), ih h.2]

theorem splitOn_append (sep : UInt8) (a b : Bytes) (h : sep ∉ a) :
    splitOn sep (a ++ sep :: b) = a :: splitOn sep b := by
  induction a with
  | nil => simp [splitOn]
  | cons c a ih =>
    simp only [List.mem_cons, not_or] at h
    simp only [List.cons_append, splitOn]
    rw [if_neg (fun e => h.1 e.symm), ih h.2]

theorem parseInt64_iff (s : Bytes) (v : Int) :
    parseInt64 s = some v ↔ ∃ n : Nat, Spec.Numeral s n ∧ n < 2 ^ 63 ∧ v = n := by
  unfold parseInt64
  constructor
  · intro h
    split at h
    · cases h
    · rename_i n hn
      split at h
      · rename_i hlt
        exact ⟨n, ((parseUint_eq_some 64 s n).1 hn).1, hlt, by simpa using h.symm⟩
      · cases h
  · rintro ⟨n, h1, h2, rfl⟩
    rw [(parseUint_eq_some 64 s n).2 ⟨h1, by omega⟩]
    simp only
    rw [if_pos h2]

/-- **C10.** `ParseHeartBeat` succeeds exactly on `a,b` with digit strings `a`, `b` whose values are at most
9223372036854, and the durations it returns are exactly those milliseconds in nanoseconds: the 64-bit
multiplication does not overflow. Every other text is rejected. -/
theorem C10_parse (s : Bytes) (x y : Int) :
    parseHeartBeat s = some (x, y) ↔
      ∃ (a b : Bytes) (n m : Nat), s = a ++ b!"," ++ b ∧ Spec.Numeral a n ∧ Spec.Numeral b m ∧
        n ≤ 9223372036854 ∧ m ≤ 9223372036854 ∧ x = n * 1000000 ∧ y = m * 1000000 := by
  have hmax : maxMilliseconds = 9223372036854 := by decide
  constructor
  · intro h
    unfold parseHeartBeat at h
    split at h
    · cases h
    · rename_i hm
      simp only [Bool.not_eq_true', Bool.not_eq_false] at hm
      obtain ⟨a, b, hs, ha, hb, la, lb⟩ := (matchPair_iff _ _).1 hm
      rw [hs, splitOn_append 44 a b (comma_not_digits a ha), splitOn_plain 44 b (comma_not_digits b hb)] at h
      simp only at h
      split at h
      · cases h
      · rename_i v1 h1
        split at h
        · cases h
        · rename_i v2 h2
          split at h
          · cases h
          · rename_i hle
            obtain ⟨n, n1, n2, n3⟩ := (parseInt64_iff _ _).1 h1
            obtain ⟨m, m1, m2, m3⟩ := (parseInt64_iff _ _).1 h2
            rw [hmax] at hle
            simp only [Option.some.injEq, Prod.mk.injEq] at h
            refine ⟨a, b, n, m, by simp [hs], n1, m1, by omega, by omega, ?_, ?_⟩
            · rw [← h.1]; unfold wrap64 millisecond; omega
            · rw [← h.2]; unfold wrap64 millisecond; omega
  · rintro ⟨a, b, n, m, hs, ha, hb, hn, hm, rfl, rfl⟩
    unfold parseHeartBeat
    have hs : s = a ++ 44 :: b := by simpa using hs
    have hmt : matchPair (fun n => decide (1 ≤ n)) s = true := by
      refine (matchPair_iff _ _).2 ⟨a, b, hs, ha.2.1, hb.2.1, ?_, ?_⟩
      · exact decide_eq_true (List.length_pos_iff.2 ha.1)
      · exact decide_eq_true (List.length_pos_iff.2 hb.1)
    rw [hmt, hs, splitOn_append 44 a b (comma_not_digits a ha.2.1),
      splitOn_plain 44 b (comma_not_digits b hb.2.1)]
    simp only [Bool.not_true, Bool.false_eq_true, if_false]
    rw [(parseInt64_iff a n).2 ⟨n, ha, by omega, rfl⟩, (parseInt64_iff b m).2 ⟨m, hb, by omega, rfl⟩]
    simp only
    rw [hmax, if_neg (by omega)]
    simp only [Option.some.injEq, Prod.mk.injEq]
    unfold wrap64 millisecond
    constructor <;> omega

example : parseHeartBeat b!"9223372036854,0" = some (9223372036854000000, 0) := by decide
example : parseHeartBeat b!"9223372036855,0" = none := by decide
example : parseHeartBeat b!"18446744073709551617,1" = none := by decide
example : parseHeartBeat b!"00060,7" = some (60000000, 7000000) := by decide
example : parseHeartBeat b!"1,2,3" = none ∧ parseHeartBeat b!"1," = none ∧ parseHeartBeat b!"1,2\n" = none := by
  decide

/-- **C10.** The returned durations are valid: non-negative and within `int64`. -/
theorem C10_no_overflow (s : Bytes) (x y : Int) (h : parseHeartBeat s = some (x, y)) :
    0 ≤ x ∧ x < 2 ^ 63 ∧ 0 ≤ y ∧ y < 2 ^ 63 := by
  obtain ⟨a, b, n, m, _, _, _, hn, hm, rfl, rfl⟩ := (C10_parse s x y).1 h
  omega

example : (parseHeartBeat b!"123,456").isSome := by decide

/-- **C10 (server side).** `getHeartBeat` on a CONNECT/STOMP frame: values of at most nine digits. -/
theorem C10_server_parse (f : Frame) (hc : f.command = b!"CONNECT" ∨ f.command = b!"STOMP") (cx cy : Nat) :
    getHeartBeat f = .ok (cx, cy) ↔
      (Spec.firstValue f.header b!"heart-beat" = none ∧ cx = 0 ∧ cy = 0) ∨
      ∃ a b, Spec.firstValue f.header b!"heart-beat" = some (a ++ b!"," ++ b) ∧ Spec.Numeral a cx ∧
        Spec.Numeral b cy ∧ a.length ≤ 9 ∧ b.length ≤ 9 := by
  have hcont : ∀ (h : Header) k, h.contains k = Spec.firstValue h k := by
    intro h k
    induction h with
    | nil => rfl
    | cons e rest ih =>
      unfold Header.contains Spec.firstValue
      by_cases hk : e.1 = k
      · simp [hk]
      · simp only [hk, if_false, List.find?, decide_false]
        rw [ih]; rfl
  have dec9 : ∀ (a : Bytes) n, Spec.Numeral a n → a.length ≤ 9 → n < 2 ^ 32 := by
    have aux : ∀ a : Bytes, (∀ c ∈ a, 48 ≤ c.toNat ∧ c.toNat ≤ 57) → Spec.decimal a < 10 ^ a.length := by
      intro a
      induction a with
      | nil => simp [Spec.decimal]
      | cons c cs ih =>
        intro h
        have := ih (fun c hc => h c (by simp [hc]))
        have hc := h c (by simp)
        simp only [Spec.decimal, List.length_cons, Nat.pow_succ]
        have : (c.toNat - 48) * 10 ^ cs.length ≤ 9 * 10 ^ cs.length := Nat.mul_le_mul_right _ (by omega)
        omega
    intro a n ha hl
    have := aux a ha.2.1
    rw [ha.2.2] at this
    have h2 : 10 ^ a.length ≤ 10 ^ 9 := Nat.pow_le_pow_right (by omega) hl
    omega
  unfold getHeartBeat
  rw [hcont]
  have hcmd : ¬ (f.command ≠ Cmd.connect ∧ f.command ≠ Cmd.stomp ∧ f.command ≠ Cmd.connected) := by
    rcases hc with h | h <;> rw [h] <;> decide
  rw [if_neg hcmd]
  show (match Spec.firstValue f.header b!"heart-beat" with | none => _ | some hb => _) = _ ↔ _
  cases hv : Spec.firstValue f.header b!"heart-beat" with
  | none =>
    simp
    constructor
    · rintro ⟨rfl, rfl⟩; exact ⟨rfl, rfl⟩
    · rintro ⟨rfl, rfl⟩; exact ⟨rfl, rfl⟩
  | some hb =>
    simp only [reduceCtorEq, false_and, false_or, Option.some.injEq]
    by_cases hm : matchPair (fun n => decide (1 ≤ n) && decide (n ≤ 9)) hb = true
    · obtain ⟨a, b, hs, ha, hb', la, lb⟩ := (matchPair_iff _ _).1 hm
      rw [hm]
      simp only [Bool.not_true, Bool.false_eq_true, if_false]
      simp only [Bool.and_eq_true, decide_eq_true_eq] at la lb
      rw [hs, splitOn_append 44 a b (comma_not_digits a ha), splitOn_plain 44 b (comma_not_digits b hb')]
      simp only
      have na : Spec.Numeral a (Spec.decimal a) := ⟨List.length_pos_iff.1 la.1, ha, rfl⟩
      have nb : Spec.Numeral b (Spec.decimal b) := ⟨List.length_pos_iff.1 lb.1, hb', rfl⟩
      rw [(parseUint_eq_some 32 a _).2 ⟨na, dec9 a _ na la.2⟩, (parseUint_eq_some 32 b _).2 ⟨nb, dec9 b _ nb lb.2⟩]
      simp only [Option.getD_some, Except.ok.injEq, Prod.mk.injEq]
      constructor
      · rintro ⟨rfl, rfl⟩; exact ⟨a, b, by simp, na, nb, la.2, lb.2⟩
      · rintro ⟨a', b', he, na', nb', _, _⟩
        have he : a ++ 44 :: b = a' ++ 44 :: b' := by simpa using he
        have h1 := indexByte_append 44 a b (comma_not_digits a ha)
        have h2 := indexByte_append 44 a' b' (comma_not_digits a' na'.2.1)
        rw [he, h2] at h1
        have hl : a'.length = a.length := by simpa using h1
        obtain ⟨e1, e2⟩ := List.append_inj he hl.symm
        subst e1
        injection e2 with _ e2
        subst e2
        exact ⟨na'.2.2, nb'.2.2⟩
    · have hm' : matchPair (fun n => decide (1 ≤ n) && decide (n ≤ 9)) hb = false := by simpa using hm
      rw [hm']
      simp only [Bool.not_false, if_true, reduceCtorEq, false_iff]
      rintro ⟨a, b, rfl, na, nb, la, lb⟩
      apply hm
      refine (matchPair_iff _ _).2 ⟨a, b, by simp, na.2.1, nb.2.1, ?_, ?_⟩
      · have := List.length_pos_iff.2 na.1; simp; exact ⟨this, la⟩
      · have := List.length_pos_iff.2 nb.1; simp; exact ⟨this, lb⟩

example : getHeartBeat ⟨b!"CONNECT", [(b!"heart-beat", b!"999999999,0")], []⟩ = .ok (999999999, 0) := rfl
example : getHeartBeat ⟨b!"STOMP", [(b!"heart-beat", b!"1000000000,0")], []⟩ = .error .invalidHeartBeat := rfl

end Stomp
