import Verif.Proofs.Codec
/-! # C01, C02, C03, C04, C06, C09: the frame codec -/
namespace Stomp

/-- A frame with awkward headers, used as the concrete case in this file. -/
def sampleFrame : Frame :=
  { command := b!"SEND"
    header := [(b!"destination", b!"/queue/a:b"), (b!"x\ny", [92, 13, 10, 0]), (b!"content-length", b!"4")]
    body := [0, 10, 0, 255] }

def sampleFrame2 : Frame :=
  { command := b!"MESSAGE", header := [(b!"a", []), (b!"a", b!"2")], body := b!"hello\n" }

theorem sampleFrame_wf : Spec.WellFormed sampleFrame := by
  refine ⟨by decide, by decide, ?_⟩
  show Spec.Numeral _ _ ∧ _
  exact ⟨⟨by decide, by decide, by decide⟩, by decide⟩

theorem sampleFrame2_wf : Spec.WellFormed sampleFrame2 := by
  refine ⟨by decide, by decide, ?_⟩
  show (0 : UInt8) ∉ _
  decide

/-! ## C01 -/

/-- **C01.** Reading what was written gives back the frame and consumes exactly the bytes written. -/
theorem C01_roundtrip (f : Frame) (rest : Bytes) (h : Spec.WellFormed f) :
    readFrame (writeFrame (some f) ++ rest) = .frame f rest :=
  readFrame_writeFrame f rest h

example : readFrame (writeFrame (some sampleFrame) ++ b!"tail") = .frame sampleFrame b!"tail" :=
  C01_roundtrip _ _ sampleFrame_wf

/-- Well-formedness is exactly what is needed: a frame survives the round trip iff it is well-formed. -/
theorem C01_roundtrip_iff (f : Frame) (rest : Bytes) :
    readFrame (writeFrame (some f) ++ rest) = .frame f rest ↔ Spec.WellFormed f :=
  ⟨fun h => (readFrame_sound _ _ _ h).1, C01_roundtrip f rest⟩

/-- The writer is injective on well-formed frames. -/
theorem C01_writer_injective (f g : Frame) (hf : Spec.WellFormed f) (hg : Spec.WellFormed g)
    (h : writeFrame (some f) = writeFrame (some g)) : f = g := by
  have h1 := C01_roundtrip f [] hf
  rw [h, C01_roundtrip g [] hg] at h1
  cases h1; rfl

example : writeFrame (some sampleFrame) ≠ writeFrame (some sampleFrame2) :=
  fun h => absurd (C01_writer_injective _ _ sampleFrame_wf sampleFrame2_wf h) (by decide)

/-! ## C02 -/

/-- What goes on the wire for a sequence of `Write` calls. -/
def writeAll (items : List (Option Frame)) : Bytes := (items.map writeFrame).flatten

theorem readAll_writeAll_append (items : List (Option Frame)) (rest : Bytes)
    (h : ∀ f, some f ∈ items → Spec.WellFormed f) :
    readAll (writeAll items ++ rest) = (items ++ (readAll rest).1, (readAll rest).2) := by
  induction items with
  | nil => simp [writeAll]
  | cons it items ih =>
    have ih := ih (fun f hf => h f (by simp [hf]))
    have e : writeAll (it :: items) ++ rest = writeFrame it ++ (writeAll items ++ rest) := by
      simp [writeAll]
    rw [e]
    cases it with
    | none => rw [readAll_heartbeat _ _ (readFrame_heartbeat _), ih]; rfl
    | some f => rw [readAll_frame _ _ _ (C01_roundtrip f _ (h f (by simp))), ih]; rfl

/-- **C02.** Any sequence of well-formed frames and heart-beats written back to back is read back as
exactly that sequence, followed by end of stream. -/
theorem C02_stream (items : List (Option Frame)) (h : ∀ f, some f ∈ items → Spec.WellFormed f) :
    readAll (writeAll items) = (items, .eof) := by
  have := readAll_writeAll_append items [] h
  have e : readAll [] = ([], .eof) := by decide
  simpa [e] using this

example : readAll (writeAll [some sampleFrame, none, none, some sampleFrame2, some sampleFrame]) =
    ([some sampleFrame, none, none, some sampleFrame2, some sampleFrame], .eof) :=
  C02_stream _ (by
    intro f hf
    simp only [List.mem_cons, Option.some.injEq, List.not_mem_nil, or_false, reduceCtorEq, false_or]
      at hf
    rcases hf with h | h | h <;> subst h
    · exact sampleFrame_wf
    · exact sampleFrame2_wf
    · exact sampleFrame_wf)

/-! ## C03 -/

/-- **C03.** Encoded header text has no LF, CR or colon, and decodes to the original. -/
theorem C03_encode_safe (s : Bytes) :
    (∀ c ∈ encodeValue s, c ≠ 10 ∧ c ≠ 13 ∧ c ≠ 58) ∧ unencodeValue (encodeValue s) = s :=
  ⟨fun c hc => encode_safe s c hc, unencode_encode s⟩

/-- **C03.** Distinct texts have distinct encodings. -/
theorem C03_encode_injective (s t : Bytes) (h : encodeValue s = encodeValue t) : s = t := by
  have := congrArg unencodeValue h
  rwa [unencode_encode, unencode_encode] at this

example : encodeValue [92, 110] ≠ encodeValue [10] := fun h => absurd (C03_encode_injective _ _ h) (by decide)

/-- **C03.** The header section written for `hs` has exactly one line feed per entry and exactly one colon
per entry, whatever the names and values are: no text can inject an entry or end the section. -/
theorem C03_no_injection (hs : Header) :
    (writeHeaders hs).count 10 = hs.length ∧ (writeHeaders hs).count 58 = hs.length ∧
    (writeHeaders hs).count 13 = 0 := by
  induction hs with
  | nil => simp [writeHeaders]
  | cons e hs ih =>
    obtain ⟨k, v⟩ := e
    have z : ∀ s : Bytes, (encodeValue s).count 10 = 0 ∧ (encodeValue s).count 58 = 0 ∧
        (encodeValue s).count 13 = 0 := by
      intro s
      refine ⟨List.count_eq_zero.2 ?_, List.count_eq_zero.2 ?_, List.count_eq_zero.2 ?_⟩
      · intro h; exact (encode_safe s _ h).1 rfl
      · intro h; exact (encode_safe s _ h).2.2 rfl
      · intro h; exact (encode_safe s _ h).2.1 rfl
    obtain ⟨i1, i2, i3⟩ := ih
    simp only [writeHeaders, List.count_append, i1, i2, i3, (z k).1, (z v).1, (z k).2.1, (z v).2.1,
      (z k).2.2, (z v).2.2, List.length_cons]
    refine ⟨?_, ?_, ?_⟩
    · have : List.count (10 : UInt8) [58] = 0 := by decide
      have h2 : List.count (10 : UInt8) [10] = 1 := by decide
      omega
    · have : List.count (58 : UInt8) [58] = 1 := by decide
      have h2 : List.count (58 : UInt8) [10] = 0 := by decide
      omega
    · have : List.count (13 : UInt8) [58] = 0 := by decide
      have h2 : List.count (13 : UInt8) [10] = 0 := by decide
      omega

example : (writeHeaders [(b!"a:b\nc", [10, 10, 58]), (b!"x", b!"\\n")]).count 10 = 2 := by decide

/-! ## C04 -/

/-- **C04.** A frame cut anywhere strictly inside its encoding is not delivered. -/
theorem C04_truncated (f : Frame) (p q : Bytes) (h : Spec.WellFormed f) (hq : q ≠ [])
    (hp : writeFrame (some f) = p ++ q) : readFrame p = .err .eof := by
  have hr := C01_roundtrip f [] h
  rw [List.append_nil, hp] at hr
  cases hres : readFrame p with
  | frame g r =>
    rw [readFrame_extend _ _ q _ hres] at hr
    injection hr with _ h2
    exact absurd (List.append_eq_nil_iff.1 h2).2 hq
  | heartbeat r => rw [readFrame_extend_heartbeat _ _ q hres] at hr; cases hr
  | err e =>
    by_cases he : e = .eof
    · rw [he]
    · rw [readFrame_extend_err _ _ q he hres] at hr; cases hr

example : readFrame ((writeFrame (some sampleFrame)).take 30) = .err .eof :=
  C04_truncated sampleFrame _ ((writeFrame (some sampleFrame)).drop 30) sampleFrame_wf (by decide)
    (by simp)

/-- **C04.** A frame that is returned is decided by the bytes consumed: more input does not change it. -/
theorem C04_extension (inp q r : Bytes) (f : Frame) (h : readFrame inp = .frame f r) :
    readFrame (inp ++ q) = .frame f (r ++ q) := readFrame_extend inp r q f h

example : readFrame b!"ACK\nid:1\n\n\x00" = .frame ⟨b!"ACK", [(b!"id", b!"1")], []⟩ [] := by decide

/-- **C04.** A stream of frames and heart-beats cut at any point is read as a prefix of the sequence
followed by end of stream, and everything written completely before the cut is delivered. -/
theorem C04_stream_cut (items : List (Option Frame)) (h : ∀ f, some f ∈ items → Spec.WellFormed f)
    (n : Nat) : ∃ k, readAll ((writeAll items).take n) = (items.take k, .eof) ∧
      (writeAll (items.take k)).length ≤ n ∧
      (∀ j, (writeAll (items.take j)).length ≤ n → items.take j <+: items.take k) := by
  induction items generalizing n with
  | nil => exact ⟨0, by simp [writeAll]; decide⟩
  | cons it items ih =>
    have hwf : ∀ f, some f ∈ items → Spec.WellFormed f := fun f hf => h f (by simp [hf])
    have e : writeAll (it :: items) = writeFrame it ++ writeAll items := by simp [writeAll]
    have hpos : 0 < (writeFrame it).length := by
      cases it <;> simp [writeFrame] <;> omega
    by_cases hn : n < (writeFrame it).length
    · refine ⟨0, ?_, by simp [writeAll], ?_⟩
      · have hr : readFrame ((writeFrame it).take n) = .err .eof := by
          cases it with
          | none =>
            have : n = 0 := by simp [writeFrame] at hn; exact hn
            subst this; decide
          | some f =>
            refine C04_truncated f _ ((writeFrame (some f)).drop n) (h f (by simp)) ?_ (by simp)
            intro he
            have := congrArg List.length he
            simp at this; omega
        rw [e, List.take_append_of_le_length (by omega), readAll_err _ _ hr]; rfl
      · intro j hj
        cases j with
        | zero => simp
        | succ j => simp [writeAll] at hj; omega
    · obtain ⟨k, h1, h2, h3⟩ := ih hwf (n - (writeFrame it).length)
      have e2 : (writeAll (it :: items)).take n =
          writeFrame it ++ (writeAll items).take (n - (writeFrame it).length) := by
        rw [e, List.take_append, List.take_of_length_le (by omega)]
      refine ⟨k + 1, ?_, ?_, ?_⟩
      · rw [e2]
        cases it with
        | none => rw [readAll_heartbeat _ _ (readFrame_heartbeat _), h1]; rfl
        | some f => rw [readAll_frame _ _ _ (C01_roundtrip f _ (h f (by simp))), h1]; rfl
      · simp [writeAll] at h2 ⊢; omega
      · intro j hj
        cases j with
        | zero => simp
        | succ j =>
          simp only [List.take_succ_cons]
          have := h3 j (by simp [writeAll] at hj ⊢; omega)
          obtain ⟨t, ht⟩ := this
          exact ⟨t, by simp [← ht]⟩

example : readAll ((writeAll [some sampleFrame2, none, some sampleFrame]).take 60) =
    ([some sampleFrame2, none], .eof) := by decide

/-! ## C06 -/

/-- **C06.** Whatever the input, a frame that `Read` returns is well-formed, and a non-empty prefix of the
input was consumed. (Termination: `readFrame` is a total function; the fuel of its header loop is never the
reason it stops, `C06_fuel`.) -/
theorem C06_sound (inp : Bytes) (f : Frame) (r : Bytes) (h : readFrame inp = .frame f r) :
    Spec.WellFormed f ∧ ∃ used, used ≠ [] ∧ inp = used ++ r := by
  obtain ⟨h1, ⟨u, hu⟩, h3⟩ := readFrame_sound inp r f h
  refine ⟨h1, u, ?_, hu.symm⟩
  intro e; subst e; simp at hu; subst hu; omega

example : ∃ f r, readFrame b!"SEND\r\ncontent-length:2\r\n\r\nhi\x00xx" = .frame f r ∧ r = b!"xx" :=
  ⟨⟨b!"SEND", [(b!"content-length", b!"2")], b!"hi"⟩, b!"xx", by decide, rfl⟩

/-- **C06.** A heart-beat is returned exactly for LF or CR-LF at the head of the input. -/
theorem C06_heartbeat (inp r : Bytes) :
    readFrame inp = .heartbeat r ↔ (inp = 10 :: r ∨ inp = 13 :: 10 :: r) := by
  constructor
  · exact readFrame_heartbeat_sound inp r
  · rintro (h | h) <;> subst h
    · exact readFrame_heartbeat r
    · simp [readFrame, readLine, readBytes, stripEol, List.isSuffixOf]

example : readFrame [13, 10, 65] = .heartbeat [65] := by decide

/-- **C06.** Reading never stops early because of the model's loop bound: any larger bound gives the same
result. -/
theorem C06_fuel (inp : Bytes) (n : Nat) (h : inp.length < n) (acc : Header) :
    readHeaders n inp acc = readHeaders (inp.length + 1) inp acc :=
  readHeaders_fuel _ _ _ _ h (by omega)

example : readHeaders 100 b!"a:b\n\n" [] = .ok ([(b!"a", b!"b")], []) := rfl

/-! ## C09 -/

/-- **C09.** `ContentLength` is absent exactly when no content-length header exists; it is `n` exactly when
the first one is a digit string denoting `n < 2^32`; otherwise it is an error. -/
theorem C09_content_length (h : Header) :
    (h.contentLength = none ↔ ∀ e ∈ h, e.1 ≠ b!"content-length") ∧
    (∀ n, h.contentLength = some (some n) ↔
      ∃ v, Spec.firstValue h b!"content-length" = some v ∧ Spec.Numeral v n ∧ n < 2 ^ 32) ∧
    (h.contentLength = some none ↔
      ∃ v, Spec.firstValue h b!"content-length" = some v ∧ ¬ ∃ n, Spec.Numeral v n ∧ n < 2 ^ 32) := by
  have hdr : Hdr.contentLength = b!"content-length" := rfl
  have key : h.contentLength = match Spec.firstValue h b!"content-length" with
      | none => none
      | some v => some (parseUint 32 v) := by
    unfold Header.contentLength
    rw [contains_eq_firstValue, hdr]
    cases Spec.firstValue h b!"content-length" with
    | none => rfl
    | some v => rfl
  rw [key]
  have hnone : Spec.firstValue h b!"content-length" = none ↔ ∀ e ∈ h, e.1 ≠ b!"content-length" := by
    unfold Spec.firstValue
    simp
  cases hv : Spec.firstValue h b!"content-length" with
  | none =>
    refine ⟨⟨fun _ => hnone.1 hv, fun _ => rfl⟩, by simp, by simp⟩
  | some v =>
    refine ⟨⟨fun h0 => (by cases h0), fun h0 => by rw [hnone.2 h0] at hv; cases hv⟩, ?_, ?_⟩
    · intro n
      simp only [Option.some.injEq, exists_eq_left']
      exact parseUint_eq_some 32 v n
    · simp only [Option.some.injEq, exists_eq_left']
      constructor
      · rintro hp ⟨n, hn⟩
        rw [(parseUint_eq_some 32 v n).2 hn] at hp; cases hp
      · intro hne
        cases hp : parseUint 32 v with
        | none => rfl
        | some n => exact absurd ⟨n, (parseUint_eq_some 32 v n).1 hp⟩ hne

example : Header.contentLength [(b!"a", b!"1"), (b!"content-length", b!"0042"), (b!"content-length", b!"x")]
    = some (some 42) := by decide
example : Header.contentLength [(b!"content-length", b!"4294967296")] = some none := by decide
example : Header.contentLength [(b!"content-length", b!"4294967295")] = some (some 4294967295) := by decide
example : Header.contentLength [(b!"content-length", b!"-1")] = some none := by decide

end Stomp
