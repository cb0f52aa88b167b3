import Verif.Proofs.Bufio
import Verif.Props.Codec
/-! # C05 (chunking does not matter) and C11 (oversized header sections) -/
namespace Stomp

/-! ## C05 -/

/-- **C05.** For every buffer size and every way the transport splits the bytes into reads (including single
bytes and empty reads, as long as it does not return 100 empty reads in a row, where Go's `bufio` reports
`io.ErrNoProgress`), the sequence of frames, heart-beats and the final error are those of the flat byte
stream. -/
theorem C05_chunking (n : Nat) (chunks : List Bytes) (h : NoStall chunks) :
    cReadAll n chunks = ((readAll chunks.flatten).1, .read (readAll chunks.flatten).2) := by
  have hi : (newReaderSize n chunks).Inv := ⟨by simp [newReaderSize]; omega, Or.inl rfl, h⟩
  have ht : (newReaderSize n chunks).tot = chunks.flatten := by simp [newReaderSize, BR.tot]
  have := cReadAllAux_spec (newReaderSize n chunks).fuel (chunks.flatten.length + 1)
    (newReaderSize n chunks) hi (by have := (newReaderSize n chunks).fuel_gt.2; omega)
    (by rw [ht]; omega)
  rw [ht] at this
  exact this

/-- **C05.** Two splits of the same bytes, read with any two buffer sizes, give the same results. -/
theorem C05_split_irrelevant (n m : Nat) (c d : List Bytes) (hc : NoStall c) (hd : NoStall d)
    (h : c.flatten = d.flatten) : cReadAll n c = cReadAll m d := by
  rw [C05_chunking n c hc, C05_chunking m d hd, h]

/-- A split without empty reads never stalls. -/
theorem noStall_of_nonempty (cs : List Bytes) (h : ∀ c ∈ cs, c ≠ []) : NoStall cs := by
  intro suf hs hp
  obtain ⟨t, ht⟩ := hp
  have : ([] : Bytes) ∈ suf := by
    rw [← ht, show (100 : Nat) = 99 + 1 from rfl, List.replicate_succ]; simp
  exact h _ (hs.subset this) rfl

/-- One byte at a time. -/
example : cReadAll 16 ((writeAll [some sampleFrame, none, some sampleFrame2]).map (fun b => [b])) =
    ([some sampleFrame, none, some sampleFrame2], .read .eof) := by
  rw [C05_chunking _ _ (noStall_of_nonempty _ (by simp)), ← List.flatMap_def, List.flatMap_singleton']
  rw [C02_stream _ (by
    intro f hf
    simp only [List.mem_cons, Option.some.injEq, List.not_mem_nil, or_false, reduceCtorEq, false_or]
      at hf
    rcases hf with h | h <;> subst h
    · exact sampleFrame_wf
    · exact sampleFrame2_wf)]

/-- The hypothesis also admits empty reads. -/
example : NoStall [[], b!"AC", [], [], b!"K\n\n\x00"] := by
  intro suf hs hp
  have h1 := hs.length_le
  have h2 := hp.length_le
  rw [List.length_replicate] at h2
  simp at h1; omega

/-- The hypothesis is needed: 100 empty reads in a row end in `io.ErrNoProgress`. -/
theorem C05_stall_witness :
    cReadAll 16 (List.replicate 100 [] ++ [b!"\n"]) = ([], .noProgress) := by decide +kernel

/-! ## C11 -/

/-- Size of the command and header section of a frame on the wire. -/
def headerSectionLength (f : Frame) : Nat := (f.command ++ [10] ++ writeHeaders f.header ++ [10]).length

/-- **C11 (full statement, false).** The documentation of `Reader`: a frame whose command and header section
exceed the buffer size is rejected. -/
def C11_claim : Prop :=
  ∀ (n : Nat) (f : Frame) (chunks : List Bytes), 16 ≤ n → n < headerSectionLength f →
    chunks.flatten = writeFrame (some f) → (cReadAll n chunks).1 = []

/-- A frame with one header of length `n`. -/
def bigHeaderFrame (n : Nat) : Frame :=
  { command := b!"SEND", header := [(b!"x", List.replicate n 97)], body := [] }

theorem bigHeaderFrame_wf (n : Nat) : Spec.WellFormed (bigHeaderFrame n) :=
  ⟨(by decide : b!"SEND" ∈ Spec.commands), by simp [bigHeaderFrame], by
    show (0 : UInt8) ∉ ([] : Bytes)
    simp⟩

/-- The encoding of a value is at least as long as the value. -/
theorem encode_length (s : Bytes) : s.length ≤ (encodeValue s).length := by
  induction s with
  | nil => simp
  | cons b bs ih =>
    rw [encodeValue_cons]
    have : 1 ≤ (encByte b).length := by unfold encByte; (repeat' split) <;> simp
    simp; omega

/-- **C11 is false**, for every buffer size: a frame whose header section exceeds the buffer is accepted in
full, however it is chunked. (`ReadBytes` accumulates over full buffers, so the buffer size limits nothing.) -/
theorem C11_oversized_accepted (n : Nat) (chunks : List Bytes) (hs : NoStall chunks)
    (h : chunks.flatten = writeFrame (some (bigHeaderFrame n))) :
    n < headerSectionLength (bigHeaderFrame n) ∧
    cReadAll n chunks = ([some (bigHeaderFrame n)], .read .eof) := by
  constructor
  · have := encode_length (List.replicate n 97)
    simp [headerSectionLength, bigHeaderFrame, writeHeaders] at this ⊢
    omega
  · rw [C05_chunking n chunks hs, h]
    have := C02_stream [some (bigHeaderFrame n)] (by
      intro f hf; simp at hf; subst hf; exact bigHeaderFrame_wf n)
    simp [writeAll] at this
    rw [this]

theorem C11_negation : ¬ C11_claim := by
  intro h
  have hs : NoStall [writeFrame (some (bigHeaderFrame 16))] :=
    noStall_of_nonempty _ (by simp [writeFrame])
  have hb := C11_oversized_accepted 16 [writeFrame (some (bigHeaderFrame 16))] hs (by simp)
  have := h 16 (bigHeaderFrame 16) [writeFrame (some (bigHeaderFrame 16))] (by decide) hb.1 (by simp)
  rw [hb.2] at this
  simp at this

/-- **C11 (partial).** What the reader does bound: a frame delivered with a content-length header has a body
shorter than 2^32 bytes. Missing: any bound on the command and header section, or on a body without
content-length (there is none in the code). -/
theorem C11_body_bound_partial (inp : Bytes) (f : Frame) (r : Bytes) (h : readFrame inp = .frame f r)
    (hc : ∃ e ∈ f.header, e.1 = b!"content-length") : f.body.length < 2 ^ 32 := by
  have hb := (C06_sound inp f r h).1.2.2
  unfold Spec.BodyOk at hb
  cases hv : Spec.firstValue f.header b!"content-length" with
  | none =>
    exfalso
    obtain ⟨e, he, hek⟩ := hc
    unfold Spec.firstValue at hv
    simp only [Option.map_eq_none_iff, List.find?_eq_none, decide_eq_true_eq] at hv
    exact hv e he hek
  | some v => rw [hv] at hb; exact hb.2

example : ∃ f r, readFrame b!"SEND\ncontent-length:2\n\nhi\x00" = .frame f r ∧
    ∃ e ∈ f.header, e.1 = b!"content-length" :=
  ⟨⟨b!"SEND", [(b!"content-length", b!"2")], b!"hi"⟩, [], by decide, (b!"content-length", b!"2"), by simp, rfl⟩

end Stomp
