import Verif.Proofs.BufioWriter
import Verif.Props.Bufio
/-! # C49: a failing transport never corrupts the stream -/
namespace Stomp

theorem bwAll_spec (fs : List (Option Frame)) (s : BW) (all : Bytes) (h : s.Inv all) :
    (bwAll fs s).2.Inv (all ++ writeAll fs) ∧ s.wire <+: (bwAll fs s).2.wire ∧
    (bwAll fs s).1.length = fs.length ∧
    (∀ k : Nat, (bwAll fs s).1[k]? = some true → all ++ writeAll (fs.take (k + 1)) <+: (bwAll fs s).2.wire) ∧
    (∀ j k : Nat, j ≤ k → (bwAll fs s).1[k]? = some true → (bwAll fs s).1[j]? = some true) ∧
    (s.err = true → (∀ ok ∈ (bwAll fs s).1, ok = false) ∧ (bwAll fs s).2 = s) ∧
    ((∀ o ∈ s.oracle, o = none) → s.err = false → (∀ ok ∈ (bwAll fs s).1, ok = true) ∧
      (bwAll fs s).2.err = false) := by
  induction fs generalizing s all with
  | nil =>
    refine ⟨by simpa [bwAll, writeAll] using h, List.prefix_refl _, rfl, by simp [bwAll], by simp [bwAll],
      by simp [bwAll], by simp [bwAll]⟩
  | cons f fs ih =>
    obtain ⟨f1, f2, f3, f4, f5, f6⟩ := bwFrame_spec f s all h
    obtain ⟨i1, i2, i3, i4, i5, i6, i7⟩ := ih _ _ f1
    have ea : ∀ l, writeAll (f :: l) = writeFrame f ++ writeAll l := by intro l; simp [writeAll]
    unfold bwAll
    simp only
    refine ⟨?_, f2.trans i2, by simp [i3], ?_, ?_, ?_, ?_⟩
    · rw [ea, ← List.append_assoc]; exact i1
    · intro k hk
      cases k with
      | zero =>
        simp at hk
        have := f4 hk
        simp only [List.take_succ_cons, List.take_zero, ea]
        simp only [writeAll, List.map_nil, List.flatten_nil, List.append_nil]
        rw [← this]; exact i2
      | succ k =>
        simp only [List.getElem?_cons_succ] at hk
        have := i4 k hk
        rw [List.take_succ_cons, ea, ← List.append_assoc]
        exact this
    · intro j k hjk hk
      cases j with
      | succ j =>
        cases k with
        | zero => omega
        | succ k =>
          simp only [List.getElem?_cons_succ] at hk ⊢
          exact i5 j k (by omega) hk
      | zero =>
        cases k with
        | zero => exact hk
        | succ k =>
          simp only [List.getElem?_cons_succ] at hk
          simp only [List.getElem?_cons_zero, Option.some.injEq]
          rw [f3]
          cases he : (bwFrame f s).2.err with
          | false => rfl
          | true =>
            have := (i6 he).1 true (List.mem_of_getElem? hk)
            cases this
    · intro he
      rw [f5 he] at i6 ⊢
      obtain ⟨a, b⟩ := i6 he
      refine ⟨?_, b⟩
      intro ok hok
      simp only [List.mem_cons] at hok
      rcases hok with h | h
      · exact h
      · exact a ok h
    · intro hall he
      obtain ⟨a, b⟩ := f6 hall he
      obtain ⟨c, d⟩ := i7 b (f3.1 a)
      refine ⟨?_, d⟩
      intro ok hok
      simp only [List.mem_cons] at hok
      rcases hok with h | h
      · rw [h]; exact a
      · exact c ok h

theorem newWriterSize_inv (n : Nat) (oracle : List (Option Nat)) : (newWriterSize n oracle).Inv [] := by
  refine ⟨?_, by simp [newWriterSize], by simp [newWriterSize], by simp [newWriterSize]⟩
  unfold newWriterSize
  simp only
  split <;> omega

/-- **C49.** Whatever the transport does: the wire holds a prefix of the encodings; the encoding of every
frame up to a successful `Write` is on the wire; successes form an initial segment. -/
theorem C49_wire_prefix (n : Nat) (oracle : List (Option Nat)) (fs : List (Option Frame)) :
    let r := bwAll fs (newWriterSize n oracle)
    r.2.wire <+: writeAll fs ∧
    (∀ k : Nat, r.1[k]? = some true → writeAll (fs.take (k + 1)) <+: r.2.wire) ∧
    (∀ j k : Nat, j ≤ k → r.1[k]? = some true → r.1[j]? = some true) := by
  obtain ⟨i1, i2, i3, i4, i5, i6, i7⟩ := bwAll_spec fs _ [] (newWriterSize_inv n oracle)
  simp only [List.nil_append] at i1 i4
  refine ⟨?_, i4, i5⟩
  cases he : (bwAll fs (newWriterSize n oracle)).2.err with
  | true => exact i1.bad he
  | false => rw [← i1.good he]; exact List.prefix_append _ _

/-- **C49.** If no transport write fails, every `Write` succeeds and the wire holds exactly the encodings. -/
theorem C49_no_failure (n : Nat) (oracle : List (Option Nat)) (fs : List (Option Frame))
    (h : ∀ o ∈ oracle, o = none) :
    (bwAll fs (newWriterSize n oracle)).1 = List.replicate fs.length true ∧
    (bwAll fs (newWriterSize n oracle)).2.wire = writeAll fs := by
  obtain ⟨i1, i2, i3, i4, i5, i6, i7⟩ := bwAll_spec fs _ [] (newWriterSize_inv n oracle)
  obtain ⟨a, b⟩ := i7 h rfl
  have h1 : (bwAll fs (newWriterSize n oracle)).1 = List.replicate fs.length true :=
    List.eq_replicate_iff.2 ⟨i3, a⟩
  refine ⟨h1, ?_⟩
  have hp := (C49_wire_prefix n oracle fs).1
  apply hp.eq_of_length_le
  cases hl : fs with
  | nil => simp [writeAll]
  | cons f fs' =>
    rw [← hl]
    have := i4 (fs.length - 1) (by
      rw [h1, List.getElem?_replicate, if_pos (by rw [hl]; simp)])
    rw [show fs.length - 1 + 1 = fs.length by rw [hl]; simp, List.take_length, List.nil_append] at this
    exact this.length_le

/-- **C49.** What a peer decodes from the wire of a failing transport: exactly the first `k` frames, where
`k` covers every `Write` that returned nil, then end of stream. -/
theorem C49_peer_view (n m : Nat) (oracle : List (Option Nat)) (fs : List (Option Frame))
    (hw : ∀ f, some f ∈ fs → Spec.WellFormed f) (chunks : List Bytes) (hs : NoStall chunks)
    (hc : chunks.flatten = (bwAll fs (newWriterSize n oracle)).2.wire) :
    ∃ k, cReadAll m chunks = (fs.take k, .read .eof) ∧
      ∀ j, (bwAll fs (newWriterSize n oracle)).1[j]? = some true → j < k := by
  obtain ⟨h1, h2, h3⟩ := C49_wire_prefix n oracle fs
  obtain ⟨t, ht⟩ := h1
  have hlen : (writeAll fs).take ((bwAll fs (newWriterSize n oracle)).2.wire.length) =
      (bwAll fs (newWriterSize n oracle)).2.wire := by
    rw [← ht]; simp
  obtain ⟨k, e1, e2, e3⟩ := C04_stream_cut fs hw ((bwAll fs (newWriterSize n oracle)).2.wire.length)
  refine ⟨k, ?_, ?_⟩
  · rw [C05_chunking m chunks hs, hc, ← hlen, e1]
  · intro j hj
    have hp := h2 j hj
    have hpre := e3 (j + 1) hp.length_le
    have hl := hpre.length_le
    have hjl : j < fs.length := by
      obtain ⟨_, _, i3, _⟩ := bwAll_spec fs _ [] (newWriterSize_inv n oracle)
      rw [← i3]
      exact (List.getElem?_eq_some_iff.1 hj).1
    simp only [List.length_take] at hl
    omega

/-- A transport that fails inside the third frame: two writes succeed, the peer sees two frames. -/
example : (bwAll [some sampleFrame2, none, some sampleFrame, none]
      (newWriterSize 16 [none, none, none, some 5])).1 = [true, true, false, false] ∧
    (readAll (bwAll [some sampleFrame2, none, some sampleFrame, none]
      (newWriterSize 16 [none, none, none, some 5])).2.wire) = ([some sampleFrame2, none], .eof) := by
  decide +kernel

end Stomp
