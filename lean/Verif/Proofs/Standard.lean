import Verif.Spec.Standard
import Verif.Proofs.Codec
/-! # The library against the text of the specification -/
namespace Stomp.Std
open Stomp

theorem upTo_spec {d : UInt8} {inp l r : Bytes} (h : upTo d inp = some (l, r)) : inp = l ++ d :: r ∧ d ∉ l := by
  induction inp generalizing l r with
  | nil => cases h
  | cons b bs ih =>
    simp only [upTo] at h
    split at h
    · next hb => cases h; simp [hb]
    · next hb =>
      cases hu : upTo d bs with
      | none => rw [hu] at h; cases h
      | some p =>
        rw [hu] at h
        cases h
        obtain ⟨h1, h2⟩ := ih (l := p.1) (r := p.2) (by rw [hu])
        refine ⟨by rw [List.cons_append, ← h1], ?_⟩
        simp only [List.mem_cons, not_or]
        exact ⟨fun e => hb e.symm, h2⟩

theorem upTo_append {d : UInt8} {l : Bytes} (r : Bytes) (h : d ∉ l) : upTo d (l ++ d :: r) = some (l, r) := by
  induction l with
  | nil => simp [upTo]
  | cons b l ih =>
    simp only [List.mem_cons, not_or] at h
    simp only [List.cons_append, upTo, if_neg (fun e => h.1 (Eq.symm e)), ih h.2, Option.map_some]

/-- Escapes mean the same to the library. -/
theorem lookup_escapes {v : Ver} {d b : UInt8} (h : (escapes v).lookup d = some b) (s : Bytes) : unencodeValue (92 :: d :: s) = b :: unencodeValue s := by
  cases v with
  | v10 => cases h
  | v11 =>
    simp only [escapes, List.lookup] at h
    split at h
    · next e => cases h; rw [eq_of_beq e]; exact unencodeValue_n s
    · split at h
      · next e => cases h; rw [eq_of_beq e]; exact unencodeValue_c s
      · split at h
        · next e => cases h; rw [eq_of_beq e]; exact unencodeValue_b s
        · cases h
  | v12 =>
    simp only [escapes, List.lookup] at h
    split at h
    · next e => cases h; rw [eq_of_beq e]; exact unencodeValue_r s
    · split at h
      · next e => cases h; rw [eq_of_beq e]; exact unencodeValue_n s
      · split at h
        · next e => cases h; rw [eq_of_beq e]; exact unencodeValue_c s
        · split at h
          · next e => cases h; rw [eq_of_beq e]; exact unencodeValue_b s
          · cases h

theorem unescape_sound {v : Ver} : ∀ (s : Bytes) {t : Bytes}, unescape v s = some t → unencodeValue s = t
  | [], t, h => by cases h; rfl
  | [c], t, h => by
    simp only [unescape] at h
    split at h
    · cases h
    · next hc => cases h; exact unencodeValue_plain c [] hc
  | c :: d :: cs, t, h => by
    simp only [unescape] at h
    split at h
    · next hc =>
      subst hc
      split at h
      · cases h
      · next b hb =>
        cases hu : unescape v cs with
        | none => rw [hu] at h; cases h
        | some u =>
          rw [hu] at h
          cases h
          rw [lookup_escapes hb, unescape_sound cs hu]
    · next hc =>
      cases hu : unescape v (d :: cs) with
      | none => rw [hu] at h; cases h
      | some u =>
        rw [hu] at h
        cases h
        rw [unencodeValue_plain c _ hc, unescape_sound (d :: cs) hu]

theorem unencode_none {s : Bytes} (h : (92 : UInt8) ∉ s) : unencodeValue s = s := by
  induction s with
  | nil => rfl
  | cons b s ih =>
    simp only [List.mem_cons, not_or] at h
    rw [unencodeValue_plain b s (fun e => h.1 e.symm), ih h.2]

/-- Before 1.2, a CR in the text is a CR in the line. -/
theorem unescape_cr {v : Ver} (hv : v ≠ .v12) : ∀ (s : Bytes) {t : Bytes}, unescape v s = some t → (13 : UInt8) ∈ s → (13 : UInt8) ∈ t
  | [], t, h, hm => by cases hm
  | [c], t, h, hm => by
    simp only [unescape] at h
    split at h
    · cases h
    · cases h; exact hm
  | c :: d :: cs, t, h, hm => by
    simp only [unescape] at h
    split at h
    · next hc =>
      subst hc
      split at h
      · cases h
      · next b hb =>
        cases hu : unescape v cs with
        | none => rw [hu] at h; cases h
        | some u =>
          rw [hu] at h
          cases h
          have hd : d ≠ 13 := by
            rintro rfl
            cases v <;> simp [escapes, List.lookup] at hb hv
          have : (13 : UInt8) ∈ cs := by
            simp only [List.mem_cons] at hm
            rcases hm with hm | hm | hm
            · cases hm
            · exact absurd hm.symm hd
            · exact hm
          exact List.mem_cons_of_mem _ (unescape_cr hv cs hu this)
    · cases hu : unescape v (d :: cs) with
      | none => rw [hu] at h; cases h
      | some u =>
        rw [hu] at h
        cases h
        rw [List.mem_cons] at hm ⊢
        rcases hm with hm | hm
        · exact .inl hm
        · exact .inr (unescape_cr hv (d :: cs) hu hm)

theorem text_sound {v : Ver} {cmd s t : Bytes} (h : text v cmd s = some t) (hp : exempt v cmd = true → (92 : UInt8) ∉ t) : unencodeValue s = t := by
  unfold text at h
  split at h
  · next he => cases h; exact unencode_none (hp he)
  · exact unescape_sound s h

theorem text_cr {v : Ver} (hv : v ≠ .v12) {cmd s t : Bytes} (h : text v cmd s = some t) (hm : (13 : UInt8) ∈ s) : (13 : UInt8) ∈ t := by
  unfold text at h
  split at h
  · cases h; exact hm
  · exact unescape_cr hv s h hm

/-- What the library takes for the line. -/
theorem readLine_upTo {inp l r : Bytes} (h : upTo 10 inp = some (l, r)) :
    readLine inp = some (if l.getLast? = some 13 then l.dropLast else l, r) := by
  obtain ⟨rfl, hl⟩ := upTo_spec h
  unfold readLine
  rw [readBytes_append 10 l r hl]
  simp only [Option.some.injEq, Prod.mk.injEq, and_true]
  unfold stripEol
  rcases List.eq_nil_or_concat l with rfl | ⟨l', c, rfl⟩
  · rfl
  · rw [List.concat_eq_append] at hl ⊢
    by_cases hc : c = 13
    · subst hc
      have h1 : [13, 10].isSuffixOf (l' ++ [13] ++ [10]) = true := List.isSuffixOf_iff_suffix.2 ⟨l', by simp⟩
      rw [if_pos h1]
      simp
    · have h2 : stripEol (l' ++ [c] ++ [10]) = l' ++ [c] := by
        unfold stripEol
        have h1 : ¬ [13, 10].isSuffixOf (l' ++ [c] ++ [10]) = true := by
          intro hs
          obtain ⟨p, hp⟩ := List.isSuffixOf_iff_suffix.1 hs
          have h1 : p ++ [13] ++ [10] = l' ++ [c] ++ [10] := by simpa using hp
          have h2 := List.append_cancel_right h1
          have h3 := congrArg List.getLast? h2
          simp at h3
          exact hc h3.symm
        have h3 : [10].isSuffixOf (l' ++ [c] ++ [10]) = true := List.isSuffixOf_iff_suffix.2 ⟨l' ++ [c], by simp⟩
        rw [if_neg h1, if_pos h3, List.length_append, List.length_singleton, Nat.add_sub_cancel]
        exact List.take_left
      unfold stripEol at h2
      rw [h2]
      simp [hc]

theorem readLine_chop {v : Ver} {inp l r : Bytes} (h : upTo 10 inp = some (l, r)) (hv : v ≠ .v12 → (13 : UInt8) ∉ l) : readLine inp = some (chop v l, r) := by
  rw [readLine_upTo h]
  unfold chop
  by_cases e : v = .v12
  · simp [e]
  · have : ¬ l.getLast? = some 13 := fun hg => hv e (List.mem_of_getLast? hg)
    simp [e, this]

theorem header_sound {v : Ver} {cmd l k x : Bytes} (h : header v cmd l = some (k, x))
    (hp : ∀ s, s = k ∨ s = x → (v ≠ .v12 → (13 : UInt8) ∉ s) ∧ (exempt v cmd = true → (92 : UInt8) ∉ s)) :
    parseHeaderLine l = some (k, x) ∧ l ≠ [] ∧ (v ≠ .v12 → (13 : UInt8) ∉ l) := by
  unfold header at h
  cases hu : upTo 58 l with
  | none => rw [hu] at h; cases h
  | some p =>
    obtain ⟨k0, x0⟩ := p
    rw [hu] at h
    simp only at h
    split at h
    · cases h
    · next hc =>
      obtain ⟨rfl, hk⟩ := upTo_spec hu
      cases h1 : text v cmd k0 with
      | none => rw [h1] at h; cases h
      | some k1 =>
        cases h2 : text v cmd x0 with
        | none => rw [h1, h2] at h; cases h
        | some x1 =>
          rw [h1, h2] at h
          cases h
          refine ⟨?_, by simp, ?_⟩
          · unfold parseHeaderLine
            rw [indexByte_append 58 k0 x0 hk]
            cases hl : k0.length with
            | zero => exact absurd (.inl (List.length_eq_zero_iff.1 hl)) hc
            | succ i =>
              have e1 : (k0 ++ 58 :: x0).take (i + 1) = k0 := by rw [← hl]; simp
              have e2 : (k0 ++ 58 :: x0).drop (i + 2) = x0 := by
                have : i + 2 = (k0 ++ [58]).length := by simp [hl]
                rw [this, show k0 ++ 58 :: x0 = (k0 ++ [58]) ++ x0 by simp]
                simp
              simp only [e1, e2]
              rw [text_sound h1 (hp _ (.inl rfl)).2, text_sound h2 (hp _ (.inr rfl)).2]
          · intro hv hm
            simp only [List.mem_append, List.mem_cons] at hm
            rcases hm with hm | hm | hm
            · exact (hp _ (.inl rfl)).1 hv (text_cr hv h1 hm)
            · cases hm
            · exact (hp _ (.inr rfl)).1 hv (text_cr hv h2 hm)

theorem chop_ne {v : Ver} (hv : v ≠ .v12) (l : Bytes) : chop v l = l := by simp [chop, hv]

theorem headers_sound {v : Ver} {cmd : Bytes} : ∀ (n : Nat) {inp rest : Bytes} {hs : List (Bytes × Bytes)} (acc : Header),
    headers v cmd n inp = some (hs, rest) →
    (∀ e ∈ hs, ∀ s, s = e.1 ∨ s = e.2 → (v ≠ .v12 → (13 : UInt8) ∉ s) ∧ (exempt v cmd = true → (92 : UInt8) ∉ s)) →
    readHeaders n inp acc = .ok (acc ++ hs, rest)
  | 0, _, _, _, _, h, _ => by cases h
  | n + 1, inp, rest, hs, acc, h, hp => by
    simp only [headers] at h
    cases hu : upTo 10 inp with
    | none => rw [hu] at h; cases h
    | some p =>
      obtain ⟨l, r⟩ := p
      rw [hu] at h
      simp only at h
      split at h
      · next hb =>
        cases h
        have hl : readLine inp = some (chop v l, rest) := readLine_chop hu (fun hv => by rw [chop_ne hv] at hb; simp [hb])
        simp [readHeaders, hl, hb]
      · next hb =>
        cases h1 : header v cmd (chop v l) with
        | none => rw [h1] at h; cases h
        | some e =>
          cases h2 : headers v cmd n r with
          | none => rw [h1, h2] at h; cases h
          | some q =>
            obtain ⟨hs', rest'⟩ := q
            rw [h1, h2] at h
            cases h
            obtain ⟨k, x⟩ := e
            obtain ⟨g1, g2, g3⟩ := header_sound h1 (hp (k, x) (by simp))
            have hl : readLine inp = some (chop v l, r) := readLine_chop hu (fun hv => by have := g3 hv; rwa [chop_ne hv] at this)
            simp only [readHeaders, hl]
            rw [if_neg (by simpa using hb), g1]
            simp only
            rw [headers_sound n (Header.add acc k x) h2 (fun e he => hp e (by simp [he]))]
            simp [Header.add]

theorem body_sound {hs : List (Bytes × Bytes)} {inp b r : Bytes} (h : body hs inp = some (b, r)) (hb : b.length < 2 ^ 32) : readBody hs inp = .ok (b, r) := by
  unfold body at h
  unfold readBody Header.contentLength
  rw [contains_eq_firstValue]
  rw [show Hdr.contentLength = b!"content-length" from rfl]
  cases hv : Spec.firstValue hs b!"content-length" with
  | none =>
    rw [hv] at h
    simp only at h ⊢
    obtain ⟨rfl, hn⟩ := upTo_spec h
    rw [readBytes_append 0 b r hn]
    simp
  | some x =>
    rw [hv] at h
    simp only at h ⊢
    split at h
    · next hx =>
      split at h
      · next hd =>
        cases h
        have hlen : Spec.decimal x < inp.length := by
          by_cases hl : Spec.decimal x < inp.length
          · exact hl
          · rw [List.drop_eq_nil_of_le (by omega)] at hd; cases hd
        have hle : (inp.take (Spec.decimal x)).length = Spec.decimal x := by rw [List.length_take]; omega
        rw [hle] at hb
        have hnum : Spec.Numeral x (Spec.decimal x) := by
          refine ⟨hx.1, fun c hc => ?_, rfl⟩
          have := List.all_eq_true.1 hx.2 c hc
          simp only [Bool.and_eq_true, decide_eq_true_eq] at this
          exact this
        rw [(parseUint_eq_some 32 x _).2 ⟨hnum, hb⟩]
        simp only
        rw [if_neg (by omega)]
        cases hdr : inp.drop (Spec.decimal x) with
        | nil => rw [hdr] at hd; cases hd
        | cons t rest =>
          rw [hdr] at hd
          cases hd
          have : inp.drop (Spec.decimal x + 1) = rest := by
            rw [← List.drop_drop, hdr]; rfl
          simp [this]
      · cases h
    · cases h

theorem decode_sound {v : Ver} {inp rest : Bytes} {f : Frame} (h : decode v inp = some (f, rest)) (hp : Readable v f) (hb : f.body.length < 2 ^ 32) :
    readFrame inp = .frame f rest := by
  unfold decode at h
  cases hu : upTo 10 inp with
  | none => rw [hu] at h; cases h
  | some p =>
    obtain ⟨l, r⟩ := p
    rw [hu] at h
    simp only at h
    split at h
    · next hc =>
      cases h1 : headers v (chop v l) (r.length + 1) r with
      | none => rw [h1] at h; cases h
      | some q =>
        obtain ⟨hs, r'⟩ := q
        rw [h1] at h
        simp only at h
        cases h2 : body hs r' with
        | none => rw [h2] at h; cases h
        | some q =>
          obtain ⟨b, r''⟩ := q
          rw [h2] at h
          cases h
          have hl : readLine inp = some (chop v l, r) := readLine_chop hu (fun hv => by
            have := (command_plain _ hc).2.1
            rwa [chop_ne hv] at this)
          unfold readFrame
          rw [hl]
          simp only
          rw [if_neg (by simpa using (command_plain _ hc).2.2), if_neg (by simpa using (mem_validCommands _).2 hc)]
          rw [headers_sound _ [] h1 hp]
          simp only [List.nil_append]
          rw [body_sound h2 hb]
    · cases h

/-! ## Writing -/

theorem unescape_encode {v : Ver} (hv : v ≠ .v10) {s : Bytes} (hs : v ≠ .v12 → (13 : UInt8) ∉ s) : unescape v (encodeValue s) = some s := by
  induction s with
  | nil => rfl
  | cons b s ih =>
    have ih := ih (fun h hm => hs h (List.mem_cons_of_mem _ hm))
    rw [encodeValue_cons]
    unfold encByte
    split
    · next h =>
      subst h
      show unescape v (92 :: 92 :: encodeValue s) = _
      simp only [unescape, if_true, ih]
      cases v with
      | v10 => exact absurd rfl hv
      | v11 => rfl
      | v12 => rfl
    · next h92 =>
      split
      · next h =>
        subst h
        show unescape v (92 :: 114 :: encodeValue s) = _
        simp only [unescape, if_true, ih]
        cases v with
        | v10 => exact absurd rfl hv
        | v11 => exact absurd (List.mem_cons_self) (hs (by simp))
        | v12 => rfl
      · split
        · next h =>
          subst h
          show unescape v (92 :: 110 :: encodeValue s) = _
          simp only [unescape, if_true, ih]
          cases v with
          | v10 => exact absurd rfl hv
          | v11 => rfl
          | v12 => rfl
        · split
          · next h =>
            subst h
            show unescape v (92 :: 99 :: encodeValue s) = _
            simp only [unescape, if_true, ih]
            cases v with
            | v10 => exact absurd rfl hv
            | v11 => rfl
            | v12 => rfl
          · show unescape v (b :: encodeValue s) = _
            cases he : encodeValue s with
            | nil =>
              rw [he] at ih
              cases ih
              simp [unescape, h92]
            | cons d cs =>
              rw [he] at ih
              simp [unescape, h92, ih]

theorem encode_plain {s : Bytes} (h : (92 : UInt8) ∉ s ∧ (13 : UInt8) ∉ s ∧ (10 : UInt8) ∉ s ∧ (58 : UInt8) ∉ s) : encodeValue s = s := by
  induction s with
  | nil => rfl
  | cons b s ih =>
    simp only [List.mem_cons, not_or] at h
    obtain ⟨⟨a1, b1⟩, ⟨a2, b2⟩, ⟨a3, b3⟩, ⟨a4, b4⟩⟩ := h
    rw [encodeValue_cons, ih ⟨b1, b2, b3, b4⟩]
    simp [encByte, Ne.symm a1, Ne.symm a2, Ne.symm a3, Ne.symm a4]

theorem text_encode {v : Ver} {cmd s : Bytes} (h1 : v ≠ .v12 → (13 : UInt8) ∉ s)
    (h2 : exempt v cmd = true → (92 : UInt8) ∉ s ∧ (13 : UInt8) ∉ s ∧ (10 : UInt8) ∉ s ∧ (58 : UInt8) ∉ s) : text v cmd (encodeValue s) = some s := by
  unfold text
  split
  · next he => rw [encode_plain (h2 he)]
  · next he =>
    refine unescape_encode ?_ h1
    rintro rfl
    exact he rfl

theorem header_encode {v : Ver} {cmd k x : Bytes} (hk : k ≠ [])
    (h : ∀ s, s = k ∨ s = x → (v ≠ .v12 → (13 : UInt8) ∉ s) ∧ (exempt v cmd = true → (92 : UInt8) ∉ s ∧ (13 : UInt8) ∉ s ∧ (10 : UInt8) ∉ s ∧ (58 : UInt8) ∉ s)) :
    header v cmd (encodeValue k ++ 58 :: encodeValue x) = some (k, x) := by
  unfold header
  rw [upTo_append _ (fun hm => (encode_safe k _ hm).2.2 rfl)]
  simp only
  rw [if_neg, text_encode (h k (.inl rfl)).1 (h k (.inl rfl)).2, text_encode (h x (.inr rfl)).1 (h x (.inr rfl)).2]
  rintro (h1 | ⟨_, h1⟩ | ⟨_, h1⟩)
  · exact encode_ne_nil k hk h1
  · simp only [List.mem_append, List.mem_cons] at h1
    rcases h1 with h1 | h1 | h1
    · exact (encode_safe k _ h1).2.1 rfl
    · cases h1
    · exact (encode_safe x _ h1).2.1 rfl
  · exact (encode_safe x _ h1).2.2 rfl

theorem chop_plain {v : Ver} {l : Bytes} (h : (13 : UInt8) ∉ l) : chop v l = l := by
  unfold chop
  rw [if_neg]
  rintro ⟨_, hg⟩
  exact h (List.mem_of_getLast? hg)

theorem headers_write {v : Ver} {cmd : Bytes} (rest : Bytes) : ∀ (hs : Header) (n : Nat), hs.length < n → (∀ e ∈ hs, e.1 ≠ []) →
    (∀ e ∈ hs, ∀ s, s = e.1 ∨ s = e.2 →
      (v ≠ .v12 → (13 : UInt8) ∉ s) ∧ (exempt v cmd = true → (92 : UInt8) ∉ s ∧ (13 : UInt8) ∉ s ∧ (10 : UInt8) ∉ s ∧ (58 : UInt8) ∉ s)) →
    headers v cmd n (writeHeaders hs ++ 10 :: rest) = some (hs, rest)
  | _, 0, h, _, _ => by omega
  | [], n + 1, _, _, _ => by simp [headers, writeHeaders, upTo, chop]
  | (k, x) :: hs, n + 1, hn, hk, hp => by
    have e : writeHeaders ((k, x) :: hs) ++ 10 :: rest = (encodeValue k ++ 58 :: encodeValue x) ++ 10 :: (writeHeaders hs ++ 10 :: rest) := by simp [writeHeaders]
    have hl : (10 : UInt8) ∉ encodeValue k ++ 58 :: encodeValue x := by have := (line_plain k x).1; simpa using this
    have hl' : (13 : UInt8) ∉ encodeValue k ++ 58 :: encodeValue x := by have := (line_plain k x).2; simpa using this
    simp only [headers]
    rw [e, upTo_append _ hl]
    simp only
    rw [chop_plain hl', if_neg (by simp), header_encode (hk (k, x) (by simp)) (hp (k, x) (by simp)),
      headers_write rest hs n (by simpa using hn) (fun e he => hk e (by simp [he])) (fun e he => hp e (by simp [he]))]

theorem body_write {f : Frame} (rest : Bytes) (h : Spec.BodyOk f) : body f.header (f.body ++ 0 :: rest) = some (f.body, rest) := by
  unfold Spec.BodyOk at h
  unfold body
  cases hv : Spec.firstValue f.header b!"content-length" with
  | none =>
    rw [hv] at h
    exact upTo_append rest h
  | some x =>
    rw [hv] at h
    simp only at h ⊢
    obtain ⟨⟨h1, h2, h3⟩, _⟩ := h
    rw [if_pos ⟨h1, List.all_eq_true.2 (fun c hc => by have := h2 c hc; simp [this.1, this.2])⟩, h3]
    simp

theorem decode_write {v : Ver} {f : Frame} (rest : Bytes) (hw : Spec.WellFormed f) (hp : Writable v f) :
    decode v (writeFrame (some f) ++ rest) = some (f, rest) := by
  obtain ⟨hc, hk, hb⟩ := hw
  obtain ⟨h10, h13, hne⟩ := command_plain _ hc
  have e : writeFrame (some f) ++ rest = f.command ++ 10 :: (writeHeaders f.header ++ 10 :: (f.body ++ 0 :: rest)) := by
    simp only [writeFrame]
    split
    · simp
    · rename_i hb0
      have : f.body = [] := List.length_eq_zero_iff.1 (by omega)
      simp [this]
  rw [e]
  unfold decode
  rw [upTo_append _ h10]
  simp only
  rw [chop_plain h13, if_pos hc, headers_write _ f.header _ (by
    have := writeHeaders_length f.header
    simp; omega) hk hp]
  simp only
  rw [body_write rest hb]

end Stomp.Std
