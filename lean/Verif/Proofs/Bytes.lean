import Verif.Model.Codec
import Verif.Spec.Codec
/-! Lemmas about the byte-level helpers. -/
namespace Stomp

/-! ### digits and numerals -/

theorem digitsVal_foldl (s : Bytes) (a : Nat) :
    s.foldl (fun n c => 10 * n + digitVal c) a = a * 10 ^ s.length + Spec.decimal s := by
  induction s generalizing a with
  | nil => simp [Spec.decimal]
  | cons c cs ih =>
    rw [List.foldl_cons, ih]
    simp only [List.length_cons, Spec.decimal, digitVal, Nat.pow_succ]
    rw [Nat.add_mul, Nat.add_assoc]
    congr 1
    rw [Nat.mul_comm 10 a, Nat.mul_assoc, Nat.mul_comm 10]

theorem digitsVal_eq (s : Bytes) : digitsVal s = Spec.decimal s := by
  simp [digitsVal, digitsVal_foldl]

theorem isDigit_iff (c : UInt8) : isDigit c = true ↔ 48 ≤ c.toNat ∧ c.toNat ≤ 57 := by
  simp [isDigit, UInt8.le_iff_toNat_le]

theorem parseUint_eq_some (bits : Nat) (s : Bytes) (n : Nat) :
    parseUint bits s = some n ↔ Spec.Numeral s n ∧ n < 2 ^ bits := by
  unfold parseUint Spec.Numeral
  rw [digitsVal_eq]
  have : (s.all isDigit = true) ↔ ∀ c ∈ s, 48 ≤ c.toNat ∧ c.toNat ≤ 57 := by
    simp [List.all_eq_true, isDigit_iff]
  split
  · rename_i h
    rw [this] at h
    constructor
    · intro e; cases e; exact ⟨⟨h.1, h.2.1, rfl⟩, h.2.2⟩
    · rintro ⟨⟨_, _, rfl⟩, _⟩; rfl
  · rename_i h
    rw [this] at h
    constructor
    · intro e; cases e
    · rintro ⟨⟨h1, h2, rfl⟩, h3⟩; exact absurd ⟨h1, h2, h3⟩ h

theorem decimal_append (s : Bytes) (c : UInt8) :
    Spec.decimal (s ++ [c]) = Spec.decimal s * 10 + (c.toNat - 48) := by
  induction s with
  | nil => simp [Spec.decimal]
  | cons a s ih =>
    simp only [List.cons_append, Spec.decimal, ih, List.length_append, List.length_cons,
      List.length_nil, Nat.pow_succ, Nat.add_mul]
    simp [Nat.mul_assoc, Nat.add_assoc]

theorem fmtAux_numeral (fuel n : Nat) (h : n < fuel) : Spec.Numeral (fmtAux fuel n) n := by
  induction fuel generalizing n with
  | zero => omega
  | succ fuel ih =>
    unfold fmtAux
    split
    · rename_i h10
      refine ⟨by simp, ?_, ?_⟩
      · intro c hc
        rw [List.mem_singleton] at hc; subst hc
        rw [UInt8.toNat_ofNat']
        constructor <;> omega
      · simp only [Spec.decimal]
        rw [UInt8.toNat_ofNat']
        simp; omega
    · rename_i h10
      have hlt : n / 10 < fuel := by omega
      obtain ⟨h1, h2, h3⟩ := ih _ hlt
      refine ⟨by simp, ?_, ?_⟩
      · intro c hc
        rcases List.mem_append.1 hc with hc | hc
        · exact h2 c hc
        · rw [List.mem_singleton] at hc; subst hc
          rw [UInt8.toNat_ofNat']
          constructor <;> omega
      · rw [decimal_append, h3]
        rw [UInt8.toNat_ofNat']
        omega

theorem fmtUint_numeral (n : Nat) : Spec.Numeral (fmtUint n) n :=
  fmtAux_numeral _ _ (by omega)

theorem fmtUint_inj {m n : Nat} (h : fmtUint m = fmtUint n) : m = n := by
  have h1 := (fmtUint_numeral m).2.2
  have h2 := (fmtUint_numeral n).2.2
  rw [h] at h1
  omega

theorem parseUint_fmtUint (bits n : Nat) (h : n < 2 ^ bits) : parseUint bits (fmtUint n) = some n :=
  (parseUint_eq_some _ _ _).2 ⟨fmtUint_numeral n, h⟩

/-! ### encoding -/

/-- Encoding of a single byte. -/
def encByte (b : UInt8) : Bytes :=
  if b = 92 then [92, 92] else if b = 13 then [92, 114] else if b = 10 then [92, 110]
  else if b = 58 then [92, 99] else [b]

@[simp] theorem encodeValue_nil : encodeValue [] = [] := rfl

theorem encodeValue_cons (b : UInt8) (bs : Bytes) :
    encodeValue (b :: bs) = encByte b ++ encodeValue bs := by
  unfold encodeValue encByte
  rw [replacer]
  simp only [encodeTable, List.find?, List.isPrefixOf, Bool.and_true]
  by_cases h1 : b = 92
  · subst h1; rfl
  · have e1 : ((92 : UInt8) == b) = false := by simpa using fun h => h1 h.symm
    simp only [e1, h1, if_false]
    by_cases h2 : b = 13
    · subst h2; rfl
    · have e2 : ((13 : UInt8) == b) = false := by simpa using fun h => h2 h.symm
      simp only [e2, h2, if_false]
      by_cases h3 : b = 10
      · subst h3; rfl
      · have e3 : ((10 : UInt8) == b) = false := by simpa using fun h => h3 h.symm
        simp only [e3, h3, if_false]
        by_cases h4 : b = 58
        · subst h4; rfl
        · have e4 : ((58 : UInt8) == b) = false := by simpa using fun h => h4 h.symm
          simp only [e4, h4, if_false]
          rfl

@[simp] theorem unencodeValue_nil : unencodeValue [] = [] := rfl

theorem unencodeValue_plain (b : UInt8) (bs : Bytes) (h : b ≠ 92) :
    unencodeValue (b :: bs) = b :: unencodeValue bs := by
  unfold unencodeValue
  rw [replacer]
  have e : ((92 : UInt8) == b) = false := by simpa using fun h' => h h'.symm
  simp [unencodeTable, List.find?, List.isPrefixOf, e]

theorem unencodeValue_r (bs : Bytes) : unencodeValue (92 :: 114 :: bs) = 13 :: unencodeValue bs := rfl
theorem unencodeValue_n (bs : Bytes) : unencodeValue (92 :: 110 :: bs) = 10 :: unencodeValue bs := rfl
theorem unencodeValue_c (bs : Bytes) : unencodeValue (92 :: 99 :: bs) = 58 :: unencodeValue bs := rfl
theorem unencodeValue_b (bs : Bytes) : unencodeValue (92 :: 92 :: bs) = 92 :: unencodeValue bs := rfl

theorem unencode_encByte (b : UInt8) (bs : Bytes) :
    unencodeValue (encByte b ++ bs) = b :: unencodeValue bs := by
  unfold encByte
  split
  · subst_vars; exact unencodeValue_b _
  · split
    · subst_vars; exact unencodeValue_r _
    · split
      · subst_vars; exact unencodeValue_n _
      · split
        · subst_vars; exact unencodeValue_c _
        · exact unencodeValue_plain _ _ (by assumption)

theorem unencode_encode (s : Bytes) : unencodeValue (encodeValue s) = s := by
  induction s with
  | nil => rfl
  | cons b bs ih => rw [encodeValue_cons, unencode_encByte, ih]

theorem encByte_safe (b c : UInt8) (h : c ∈ encByte b) : c ≠ 10 ∧ c ≠ 13 ∧ c ≠ 58 := by
  unfold encByte at h
  split at h
  · simp at h; subst h; decide
  · split at h
    · simp at h; rcases h with rfl | rfl <;> decide
    · split at h
      · simp at h; rcases h with rfl | rfl <;> decide
      · split at h
        · simp at h; rcases h with rfl | rfl <;> decide
        · simp at h; subst h; refine ⟨?_, ?_, ?_⟩ <;> assumption

theorem encode_safe (s : Bytes) : ∀ c ∈ encodeValue s, c ≠ 10 ∧ c ≠ 13 ∧ c ≠ 58 := by
  induction s with
  | nil => simp
  | cons b bs ih =>
    intro c hc
    rw [encodeValue_cons] at hc
    rcases List.mem_append.1 hc with h | h
    · exact encByte_safe b c h
    · exact ih c h

theorem encode_ne_nil (s : Bytes) (h : s ≠ []) : encodeValue s ≠ [] := by
  cases s with
  | nil => exact absurd rfl h
  | cons b bs =>
    rw [encodeValue_cons]
    intro e
    have : encByte b = [] := (List.append_eq_nil_iff.1 e).1
    unfold encByte at this
    repeat' split at this
    all_goals simp at this

/-! ### lines -/

theorem readBytes_append (d : UInt8) (l r : Bytes) (h : d ∉ l) :
    readBytes d (l ++ d :: r) = some (l ++ [d], r) := by
  induction l with
  | nil => simp [readBytes]
  | cons b l ih =>
    simp only [List.mem_cons, not_or] at h
    simp only [List.cons_append, readBytes]
    rw [if_neg (fun e => h.1 e.symm), ih h.2]

theorem readBytes_spec (d : UInt8) (inp l r : Bytes) (h : readBytes d inp = some (l, r)) :
    ∃ l', l = l' ++ [d] ∧ d ∉ l' ∧ inp = l ++ r := by
  induction inp generalizing l r with
  | nil => simp [readBytes] at h
  | cons b bs ih =>
    simp only [readBytes] at h
    split at h
    · rename_i hb
      cases h
      exact ⟨[], by simp [hb]⟩
    · rename_i hb
      split at h
      · cases h
      · rename_i l1 r1 he
        cases h
        obtain ⟨l', h1, h2, h3⟩ := ih _ _ he
        refine ⟨b :: l', by simp [h1], ?_, by simp [h3]⟩
        simp only [List.mem_cons, not_or]
        exact ⟨fun e => hb e.symm, h2⟩

theorem readBytes_none (d : UInt8) (inp : Bytes) : readBytes d inp = none ↔ d ∉ inp := by
  induction inp with
  | nil => simp [readBytes]
  | cons b bs ih =>
    simp only [readBytes, List.mem_cons, not_or]
    split
    · rename_i hb; simp [hb]
    · rename_i hb
      split
      · rename_i he; simp [ih.1 he]; exact fun e => hb e.symm
      · rename_i he
        simp only [reduceCtorEq, false_iff, not_and, Classical.not_not]
        intro _
        exact Classical.byContradiction fun hn => by rw [ih.2 hn] at he; cases he

theorem readBytes_extend (d : UInt8) (inp l r q : Bytes) (h : readBytes d inp = some (l, r)) :
    readBytes d (inp ++ q) = some (l, r ++ q) := by
  obtain ⟨l', h1, h2, h3⟩ := readBytes_spec d inp l r h
  subst h1; subst h3
  have := readBytes_append d l' (r ++ q) h2
  simpa using this

theorem stripEol_plain (l : Bytes) (h : (13 : UInt8) ∉ l) : stripEol (l ++ [10]) = l := by
  unfold stripEol
  have h1 : ¬ ([13, 10].isSuffixOf (l ++ [10]) = true) := by
    rw [List.isSuffixOf_iff_suffix]
    rintro ⟨t, ht⟩
    have h2 : (t ++ [13]) ++ [10] = l ++ [10] := by simpa using ht
    have h3 := List.append_cancel_right h2
    exact h (by rw [← h3]; simp)
  rw [if_neg h1]
  have h2 : ([10].isSuffixOf (l ++ [10]) = true) := by
    rw [List.isSuffixOf_iff_suffix]; exact ⟨l, rfl⟩
  rw [if_pos h2]
  simp

theorem readLine_plain (l r : Bytes) (h10 : (10 : UInt8) ∉ l) (h13 : (13 : UInt8) ∉ l) :
    readLine (l ++ 10 :: r) = some (l, r) := by
  unfold readLine
  rw [readBytes_append 10 l r h10]
  simp [stripEol_plain l h13]

theorem readLine_lt (inp l r : Bytes) (h : readLine inp = some (l, r)) : r.length < inp.length := by
  unfold readLine at h
  split at h
  · cases h
  · rename_i line rest he
    cases h
    obtain ⟨l', h1, _, h3⟩ := readBytes_spec _ _ _ _ he
    subst h1; subst h3
    simp; omega

theorem readLine_extend (inp l r q : Bytes) (h : readLine inp = some (l, r)) :
    readLine (inp ++ q) = some (l, r ++ q) := by
  unfold readLine at *
  split at h
  · cases h
  · rename_i line rest he
    cases h
    rw [readBytes_extend _ _ _ _ q he]

theorem indexByte_append (c : UInt8) (l r : Bytes) (h : c ∉ l) :
    indexByte c (l ++ c :: r) = some l.length := by
  induction l with
  | nil => simp [indexByte]
  | cons b l ih =>
    simp only [List.mem_cons, not_or] at h
    simp only [List.cons_append, indexByte]
    rw [if_neg (fun e => h.1 e.symm), ih h.2]
    simp

theorem indexByte_some (c : UInt8) (s : Bytes) (i : Nat) (h : indexByte c s = some i) :
    i < s.length ∧ c ∉ s.take i := by
  induction s generalizing i with
  | nil => simp [indexByte] at h
  | cons b s ih =>
    simp only [indexByte] at h
    split at h
    · cases h; simp
    · rename_i hb
      cases hi : indexByte c s with
      | none => simp [hi] at h
      | some j =>
        simp [hi] at h
        subst h
        obtain ⟨h1, h2⟩ := ih j hi
        refine ⟨by simp; omega, ?_⟩
        simp only [List.take_succ_cons, List.mem_cons, not_or]
        exact ⟨fun e => hb e.symm, h2⟩

end Stomp
