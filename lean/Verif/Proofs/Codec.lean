import Verif.Proofs.Bytes
/-! Lemmas about the reader and the writer. -/
namespace Stomp

theorem contains_eq_firstValue (h : Header) (k : Bytes) : h.contains k = Spec.firstValue h k := by
  induction h with
  | nil => rfl
  | cons e rest ih =>
    obtain ⟨k', v⟩ := e
    unfold Header.contains Spec.firstValue
    by_cases hk : k' = k
    · simp [hk]
    · simp only [hk, if_false, List.find?, decide_false]
      rw [ih]; rfl

theorem mem_validCommands (c : Bytes) : c ∈ validCommands ↔ c ∈ Spec.commands := by
  unfold validCommands Spec.commands Cmd.connect Cmd.stomp Cmd.connected Cmd.send Cmd.subscribe
    Cmd.unsubscribe Cmd.ack Cmd.nack Cmd.begin_ Cmd.commit Cmd.abort Cmd.disconnect Cmd.message
    Cmd.receipt Cmd.error
  simp only [List.mem_cons, List.not_mem_nil, or_false]
  constructor <;> (intro h; rcases h with h|h|h|h|h|h|h|h|h|h|h|h|h|h|h <;> subst h <;> decide)

theorem command_plain (c : Bytes) (h : c ∈ Spec.commands) :
    (10 : UInt8) ∉ c ∧ (13 : UInt8) ∉ c ∧ c ≠ [] := by
  simp only [Spec.commands, List.mem_cons, List.not_mem_nil, or_false] at h
  rcases h with h|h|h|h|h|h|h|h|h|h|h|h|h|h|h <;> subst h <;> decide

theorem parseHeaderLine_encode (k v : Bytes) (hk : k ≠ []) :
    parseHeaderLine (encodeValue k ++ [58] ++ encodeValue v) = some (k, v) := by
  unfold parseHeaderLine
  have h58 : (58 : UInt8) ∉ encodeValue k := fun h => (encode_safe k _ h).2.2 rfl
  have hidx : indexByte 58 (encodeValue k ++ [58] ++ encodeValue v) = some (encodeValue k).length := by
    have := indexByte_append 58 (encodeValue k) (encodeValue v) h58
    simpa using this
  rw [hidx]
  have hne := encode_ne_nil k hk
  cases hl : (encodeValue k).length with
  | zero => exact absurd (List.length_eq_zero_iff.1 hl) hne
  | succ i =>
    simp only
    have e1 : (encodeValue k ++ [58] ++ encodeValue v).take (i + 1) = encodeValue k := by
      rw [← hl]; simp
    have e2 : (encodeValue k ++ [58] ++ encodeValue v).drop (i + 2) = encodeValue v := by
      have : i + 2 = (encodeValue k ++ [58]).length := by simp [hl]
      rw [this]; simp
    rw [e1, e2, unencode_encode, unencode_encode]

theorem line_plain (k v : Bytes) :
    (10 : UInt8) ∉ encodeValue k ++ [58] ++ encodeValue v ∧
    (13 : UInt8) ∉ encodeValue k ++ [58] ++ encodeValue v := by
  constructor
  · intro h
    simp only [List.mem_append, List.mem_singleton] at h
    rcases h with (h | h) | h
    · exact (encode_safe k _ h).1 rfl
    · exact absurd h (by decide)
    · exact (encode_safe v _ h).1 rfl
  · intro h
    simp only [List.mem_append, List.mem_singleton] at h
    rcases h with (h | h) | h
    · exact (encode_safe k _ h).2.1 rfl
    · exact absurd h (by decide)
    · exact (encode_safe v _ h).2.1 rfl

theorem readHeaders_write (hs : Header) (rest : Bytes) (acc : Header) (fuel : Nat)
    (hk : ∀ e ∈ hs, e.1 ≠ []) (hf : hs.length < fuel) :
    readHeaders fuel (writeHeaders hs ++ 10 :: rest) acc = .ok (acc ++ hs, rest) := by
  induction hs generalizing acc fuel with
  | nil =>
    cases fuel with
    | zero => simp at hf
    | succ fuel =>
      have := readLine_plain [] rest (by simp) (by simp)
      simp only [List.nil_append] at this
      simp [writeHeaders, readHeaders, this]
  | cons e hs ih =>
    obtain ⟨k, v⟩ := e
    cases fuel with
    | zero => simp at hf
    | succ fuel =>
      have hkne : k ≠ [] := hk (k, v) (by simp)
      have hlp := line_plain k v
      have hline := readLine_plain (encodeValue k ++ [58] ++ encodeValue v)
        (writeHeaders hs ++ 10 :: rest) hlp.1 hlp.2
      have e1 : writeHeaders ((k, v) :: hs) ++ 10 :: rest =
          encodeValue k ++ [58] ++ encodeValue v ++ 10 :: (writeHeaders hs ++ 10 :: rest) := by
        simp [writeHeaders]
      rw [e1]
      simp only [readHeaders, hline]
      rw [if_neg (by simp)]
      rw [parseHeaderLine_encode k v hkne]
      simp only
      rw [ih (Header.add acc k v) fuel (fun e he => hk e (by simp [he]))
        (by simp only [List.length_cons] at hf; omega)]
      simp [Header.add]

theorem writeHeaders_length (hs : Header) : hs.length ≤ (writeHeaders hs).length := by
  induction hs with
  | nil => simp
  | cons e hs ih =>
    obtain ⟨k, v⟩ := e
    simp [writeHeaders]; omega

theorem readBody_write (f : Frame) (rest : Bytes) (h : Spec.BodyOk f) :
    readBody f.header (f.body ++ 0 :: rest) = .ok (f.body, rest) := by
  unfold Spec.BodyOk at h
  unfold readBody Header.contentLength
  rw [contains_eq_firstValue]
  change match Spec.firstValue f.header Hdr.contentLength with
    | some v => Spec.Numeral v f.body.length ∧ f.body.length < 2 ^ 32
    | none => (0 : UInt8) ∉ f.body at h
  cases hv : Spec.firstValue f.header Hdr.contentLength with
  | none =>
    rw [hv] at h
    simp only
    rw [readBytes_append 0 f.body rest h]
    simp
  | some v =>
    rw [hv] at h
    simp only
    rw [(parseUint_eq_some 32 v f.body.length).2 h]
    simp

theorem readFrame_writeFrame (f : Frame) (rest : Bytes) (hw : Spec.WellFormed f) :
    readFrame (writeFrame (some f) ++ rest) = .frame f rest := by
  obtain ⟨hc, hk, hb⟩ := hw
  obtain ⟨h10, h13, hne⟩ := command_plain _ hc
  have e : writeFrame (some f) ++ rest =
      f.command ++ 10 :: (writeHeaders f.header ++ 10 :: (f.body ++ 0 :: rest)) := by
    simp only [writeFrame]
    split
    · simp
    · rename_i hb0
      have : f.body = [] := List.length_eq_zero_iff.1 (by omega)
      simp [this]
  rw [e]
  unfold readFrame
  rw [readLine_plain _ _ h10 h13]
  simp only
  rw [if_neg (by simpa using hne), if_neg (by simpa using (mem_validCommands _).2 hc)]
  rw [readHeaders_write f.header _ [] _ hk (by
    have := writeHeaders_length f.header
    simp; omega)]
  simp only [List.nil_append]
  rw [readBody_write f rest hb]

theorem readFrame_heartbeat (rest : Bytes) : readFrame (writeFrame none ++ rest) = .heartbeat rest := by
  have := readLine_plain [] rest (by simp) (by simp)
  simp only [List.nil_append] at this
  simp [readFrame, writeFrame, this]

/-! ### extension -/

theorem readHeaders_extend (fuel : Nat) (inp : Bytes) (acc h : Header) (r q : Bytes)
    (he : readHeaders fuel inp acc = .ok (h, r)) (fuel' : Nat) (hf : fuel ≤ fuel') :
    readHeaders fuel' (inp ++ q) acc = .ok (h, r ++ q) := by
  induction fuel generalizing inp acc fuel' with
  | zero => simp [readHeaders] at he
  | succ fuel ih =>
    cases fuel' with
    | zero => omega
    | succ fuel' =>
      simp only [readHeaders] at he ⊢
      split at he
      · cases he
      · rename_i line rest hl
        rw [readLine_extend _ _ _ q hl]
        simp only
        split at he
        · rename_i h0
          cases he
          rw [if_pos h0]
        · rename_i h0
          rw [if_neg h0]
          split at he
          · cases he
          · rename_i k v hp
            exact ih _ _ he _ (by omega)

theorem readBody_extend (h : Header) (inp b r q : Bytes) (he : readBody h inp = .ok (b, r)) :
    readBody h (inp ++ q) = .ok (b, r ++ q) := by
  unfold readBody at *
  split at he
  · cases he
  · rename_i n hcl
    split at he
    · cases he
    · rename_i hlen
      rw [if_neg (by simp; omega)]
      have hle : n ≤ inp.length := by omega
      rw [List.drop_append_of_le_length hle, List.take_append_of_le_length hle]
      split at he
      · cases he
      · rename_i t rest hd
        rw [hd]
        simp only [List.cons_append]
        split at he
        · cases he
        · rename_i ht
          cases he
          rw [if_neg ht]
  · split at he
    · cases he
    · rename_i body rest hb
      cases he
      rw [readBytes_extend _ _ _ _ q hb]

theorem readFrame_extend (inp r q : Bytes) (f : Frame) (h : readFrame inp = .frame f r) :
    readFrame (inp ++ q) = .frame f (r ++ q) := by
  unfold readFrame at *
  split at h
  · cases h
  · rename_i cmd rest hl
    rw [readLine_extend _ _ _ q hl]
    simp only
    split at h
    · cases h
    · rename_i h0
      rw [if_neg h0]
      split at h
      · cases h
      · rename_i hv
        rw [if_neg hv]
        split at h
        · cases h
        · rename_i hd rest' hh
          rw [readHeaders_extend _ _ _ _ _ q hh _ (by simp)]
          simp only
          split at h
          · cases h
          · rename_i body rest'' hb
            rw [readBody_extend _ _ _ _ q hb]
            cases h
            rfl

theorem readFrame_extend_heartbeat (inp r q : Bytes) (h : readFrame inp = .heartbeat r) :
    readFrame (inp ++ q) = .heartbeat (r ++ q) := by
  unfold readFrame at *
  split at h
  · cases h
  · rename_i cmd rest hl
    rw [readLine_extend _ _ _ q hl]
    simp only
    split at h
    · rename_i h0
      rw [if_pos h0]; cases h; rfl
    · split at h
      · cases h
      · split at h
        · cases h
        · split at h
          · cases h
          · cases h

theorem readHeaders_fuel (fuel fuel' : Nat) (inp : Bytes) (acc : Header) (h : inp.length < fuel)
    (h' : inp.length < fuel') : readHeaders fuel inp acc = readHeaders fuel' inp acc := by
  induction fuel generalizing inp acc fuel' with
  | zero => omega
  | succ fuel ih =>
    cases fuel' with
    | zero => omega
    | succ fuel' =>
      simp only [readHeaders]
      split
      · rfl
      · rename_i line rest hl
        have := readLine_lt _ _ _ hl
        split
        · rfl
        · split
          · rfl
          · exact ih _ _ _ (by omega) (by omega)

/-- An error other than EOF is decided by the bytes read: it survives extension. -/
theorem readHeaders_extend_err (fuel : Nat) (inp : Bytes) (acc : Header) (e : ReadErr) (q : Bytes)
    (hne : e ≠ .eof) (he : readHeaders fuel inp acc = .error e) (fuel' : Nat) (hf : fuel ≤ fuel') :
    readHeaders fuel' (inp ++ q) acc = .error e := by
  induction fuel generalizing inp acc fuel' with
  | zero => simp [readHeaders] at he; exact absurd he.symm hne
  | succ fuel ih =>
    cases fuel' with
    | zero => omega
    | succ fuel' =>
      simp only [readHeaders] at he ⊢
      split at he
      · cases he; exact absurd rfl hne
      · rename_i line rest hl
        rw [readLine_extend _ _ _ q hl]
        simp only
        split at he
        · cases he
        · rename_i h0
          rw [if_neg h0]
          split at he
          · rename_i hp
            exact he
          · rename_i k v hp
            exact ih _ _ he _ (by omega)

theorem readBody_extend_err (h : Header) (inp : Bytes) (e : ReadErr) (q : Bytes) (hne : e ≠ .eof)
    (he : readBody h inp = .error e) : readBody h (inp ++ q) = .error e := by
  unfold readBody at *
  split at he
  · exact he
  · rename_i n hcl
    split at he
    · cases he; exact absurd rfl hne
    · rename_i hlen
      rw [if_neg (by simp; omega)]
      have hle : n ≤ inp.length := by omega
      rw [List.drop_append_of_le_length hle]
      split at he
      · cases he; exact absurd rfl hne
      · rename_i t rest hd
        rw [hd]
        simp only [List.cons_append]
        split at he
        · rename_i ht
          rw [if_pos ht]; exact he
        · cases he
  · split at he
    · cases he; exact absurd rfl hne
    · cases he

theorem readFrame_extend_err (inp : Bytes) (e : ReadErr) (q : Bytes) (hne : e ≠ .eof)
    (h : readFrame inp = .err e) : readFrame (inp ++ q) = .err e := by
  unfold readFrame at *
  split at h
  · cases h; exact absurd rfl hne
  · rename_i cmd rest hl
    rw [readLine_extend _ _ _ q hl]
    simp only
    split at h
    · cases h
    · rename_i h0
      rw [if_neg h0]
      split at h
      · rename_i hv
        rw [if_pos hv]; exact h
      · rename_i hv
        rw [if_neg hv]
        split at h
        · rename_i e' hh
          cases h
          rw [readHeaders_extend_err _ _ _ _ q hne hh _ (by simp)]
        · rename_i hd rest' hh
          rw [readHeaders_extend _ _ _ _ _ q hh _ (by simp)]
          simp only
          split at h
          · rename_i e' hb
            cases h
            rw [readBody_extend_err _ _ _ q hne hb]
          · cases h

/-! ### soundness -/

theorem unencode_ne_nil (s : Bytes) (h : s ≠ []) : unencodeValue s ≠ [] := by
  cases s with
  | nil => exact absurd rfl h
  | cons b bs =>
    unfold unencodeValue
    rw [replacer]
    split
    · rename_i p hp
      have hm := List.mem_of_find?_eq_some hp
      simp only [unencodeTable, List.mem_cons, List.not_mem_nil, or_false] at hm
      rcases hm with h | h | h | h <;> subst h <;> simp
    · simp

theorem parseHeaderLine_name (line k v : Bytes) (h : parseHeaderLine line = some (k, v)) : k ≠ [] := by
  unfold parseHeaderLine at h
  split at h
  · cases h
  · cases h
  · rename_i i hi
    cases h
    have := indexByte_some _ _ _ hi
    apply unencode_ne_nil
    intro e
    have h2 := congrArg List.length e
    simp at h2
    rw [h2] at this
    simp at this

theorem readHeaders_names (fuel : Nat) (inp : Bytes) (acc h : Header) (r : Bytes)
    (he : readHeaders fuel inp acc = .ok (h, r)) (ha : ∀ e ∈ acc, e.1 ≠ []) : ∀ e ∈ h, e.1 ≠ [] := by
  induction fuel generalizing inp acc with
  | zero => simp [readHeaders] at he
  | succ fuel ih =>
    simp only [readHeaders] at he
    split at he
    · cases he
    · split at he
      · cases he; exact ha
      · split at he
        · cases he
        · rename_i k v hp
          refine ih _ _ he ?_
          intro e hm
          simp only [Header.add, List.mem_append, List.mem_singleton] at hm
          rcases hm with hm | hm
          · exact ha e hm
          · subst hm; exact parseHeaderLine_name _ _ _ hp

theorem readHeaders_suffix (fuel : Nat) (inp : Bytes) (acc h : Header) (r : Bytes)
    (he : readHeaders fuel inp acc = .ok (h, r)) : r <:+ inp ∧ r.length < inp.length := by
  induction fuel generalizing inp acc with
  | zero => simp [readHeaders] at he
  | succ fuel ih =>
    simp only [readHeaders] at he
    split at he
    · cases he
    · rename_i line rest hl
      have hlt := readLine_lt _ _ _ hl
      have hsuf : rest <:+ inp := by
        unfold readLine at hl
        split at hl
        · cases hl
        · rename_i l r' hb
          cases hl
          obtain ⟨_, _, _, h3⟩ := readBytes_spec _ _ _ _ hb
          exact ⟨l, h3.symm⟩
      split at he
      · cases he; exact ⟨hsuf, hlt⟩
      · split at he
        · cases he
        · have := ih _ _ he
          exact ⟨this.1.trans hsuf, by omega⟩

theorem readBody_sound (h : Header) (inp b r : Bytes) (he : readBody h inp = .ok (b, r)) (c : Bytes) :
    Spec.BodyOk { command := c, header := h, body := b } ∧ inp = b ++ 0 :: r := by
  unfold readBody Header.contentLength at he
  rw [contains_eq_firstValue] at he
  unfold Spec.BodyOk
  change (match Spec.firstValue h Hdr.contentLength with
    | some v => Spec.Numeral v b.length ∧ b.length < 2 ^ 32
    | none => (0 : UInt8) ∉ b) ∧ _
  cases hv : Spec.firstValue h Hdr.contentLength with
  | none =>
    rw [hv] at he
    simp only at he ⊢
    split at he
    · cases he
    · rename_i body rest hb
      cases he
      obtain ⟨l', h1, h2, h3⟩ := readBytes_spec _ _ _ _ hb
      subst h1
      simp at h3 ⊢
      exact ⟨h2, h3⟩
  | some v =>
    rw [hv] at he
    simp only at he ⊢
    cases hp : parseUint 32 v with
    | none => rw [hp] at he; simp at he
    | some n =>
      rw [hp] at he
      simp only at he
      split at he
      · cases he
      · rename_i hlen
        split at he
        · cases he
        · rename_i t rest hd
          split at he
          · cases he
          · rename_i ht
            cases he
            have hlen' : (inp.take n).length = n := by simp; omega
            have ht : t = 0 := Classical.not_not.1 ht
            refine ⟨?_, ?_⟩
            · rw [hlen']; exact (parseUint_eq_some _ _ _).1 hp
            · rw [← ht, ← hd, List.take_append_drop]

theorem readFrame_sound (inp r : Bytes) (f : Frame) (h : readFrame inp = .frame f r) :
    Spec.WellFormed f ∧ r <:+ inp ∧ r.length < inp.length := by
  unfold readFrame at h
  split at h
  · cases h
  · rename_i cmd rest hl
    have hlt := readLine_lt _ _ _ hl
    have hsuf : rest <:+ inp := by
      unfold readLine at hl
      split at hl
      · cases hl
      · rename_i l r' hb
        cases hl
        obtain ⟨_, _, _, h3⟩ := readBytes_spec _ _ _ _ hb
        exact ⟨l, h3.symm⟩
    split at h
    · cases h
    · split at h
      · cases h
      · rename_i hv
        split at h
        · cases h
        · rename_i hd rest' hh
          split at h
          · cases h
          · rename_i body rest'' hb
            cases h
            have hbs := readBody_sound _ _ _ _ hb cmd
            have hsf := readHeaders_suffix _ _ _ _ _ hh
            have hr : r <:+ rest' := ⟨body ++ [0], by rw [hbs.2]; simp⟩
            refine ⟨⟨(mem_validCommands _).1 (Classical.not_not.1 hv), ?_, hbs.1⟩, ?_, ?_⟩
            · exact readHeaders_names _ _ _ _ _ hh (by simp)
            · exact hr.trans (hsf.1.trans hsuf)
            · have := hr.length_le; omega

theorem readFrame_heartbeat_sound (inp r : Bytes) (h : readFrame inp = .heartbeat r) :
    inp = 10 :: r ∨ inp = 13 :: 10 :: r := by
  unfold readFrame at h
  split at h
  · cases h
  · rename_i cmd rest hl
    split at h
    · rename_i h0
      cases h
      unfold readLine at hl
      split at hl
      · cases hl
      · rename_i line rest hb
        simp only [Option.some.injEq, Prod.mk.injEq] at hl
        obtain ⟨rfl, rfl⟩ := hl
        obtain ⟨l', h1, h2, h3⟩ := readBytes_spec _ _ _ _ hb
        subst h1
        unfold stripEol at h0
        split at h0
        · rename_i hs
          rw [List.isSuffixOf_iff_suffix] at hs
          have hlen := hs.length_le
          simp at h0 hlen
          have hl1 : l'.length = 1 := by omega
          have : l' ++ [10] = [13, 10] := by
            symm; exact hs.eq_of_length (by simp [hl1])
          have h4 : l' = [13] := by
            have : l' ++ [10] = [13] ++ [10] := this
            exact List.append_cancel_right this
          subst h4
          right; rw [h3]; rfl
        · split at h0
          · simp at h0
            subst h0
            left; rw [h3]; rfl
          · rename_i hs
            exact absurd (List.isSuffixOf_iff_suffix.2 ⟨l', rfl⟩) hs
    · split at h
      · cases h
      · split at h
        · cases h
        · split at h
          · cases h
          · cases h

/-! ### streams -/

theorem readFrame_consumes (inp : Bytes) :
    (∀ f r, readFrame inp = .frame f r → r.length < inp.length) ∧
    (∀ r, readFrame inp = .heartbeat r → r.length < inp.length) := by
  constructor
  · intro f r h; exact (readFrame_sound inp r f h).2.2
  · intro r h
    rcases readFrame_heartbeat_sound inp r h with h | h <;> subst h <;> simp only [List.length_cons] <;> omega

theorem readAllAux_fuel (fuel fuel' : Nat) (inp : Bytes) (h : inp.length < fuel)
    (h' : inp.length < fuel') : readAllAux fuel inp = readAllAux fuel' inp := by
  induction fuel generalizing inp fuel' with
  | zero => omega
  | succ fuel ih =>
    cases fuel' with
    | zero => omega
    | succ fuel' =>
      have hc := readFrame_consumes inp
      simp only [readAllAux]
      split
      · rfl
      · rename_i rest hr
        have := hc.2 _ hr
        rw [ih fuel' rest (by omega) (by omega)]
      · rename_i f rest hr
        have := hc.1 _ _ hr
        rw [ih fuel' rest (by omega) (by omega)]

theorem readAll_frame (inp r : Bytes) (f : Frame) (h : readFrame inp = .frame f r) :
    readAll inp = (some f :: (readAll r).1, (readAll r).2) := by
  have hc := (readFrame_consumes inp).1 _ _ h
  unfold readAll
  rw [readAllAux, h]
  simp only
  rw [readAllAux_fuel inp.length (r.length + 1) r hc (by omega)]

theorem readAll_heartbeat (inp r : Bytes) (h : readFrame inp = .heartbeat r) :
    readAll inp = (none :: (readAll r).1, (readAll r).2) := by
  have hc := (readFrame_consumes inp).2 _ h
  unfold readAll
  rw [readAllAux, h]
  simp only
  rw [readAllAux_fuel inp.length (r.length + 1) r hc (by omega)]

theorem readAll_err (inp : Bytes) (e : ReadErr) (h : readFrame inp = .err e) :
    readAll inp = ([], e) := by
  unfold readAll
  rw [readAllAux, h]

end Stomp
