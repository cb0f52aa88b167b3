import Verif.Model.BufioWriter
import Verif.Proofs.Codec
/-! Lemmas about the buffered writer. -/
namespace Stomp

/-- `all` is everything handed to the writer so far. -/
structure BW.Inv (all : Bytes) (s : BW) : Prop where
  cap : 0 < s.cap
  fit : s.err = false → s.buf.length ≤ s.cap
  good : s.err = false → s.wire ++ s.buf = all
  bad : s.err = true → s.wire <+: all

theorem transportWrite_spec (p : Bytes) (s : BW) :
    let r := transportWrite p s
    r.2.2.cap = s.cap ∧ r.2.2.buf = s.buf ∧ r.2.2.err = s.err ∧ r.1 ≤ p.length ∧
    r.2.2.wire = s.wire ++ p.take r.1 ∧ (r.2.1 = false → r.1 = p.length) ∧
    ((∀ o ∈ s.oracle, o = none) → r.2.1 = false ∧ ∀ o ∈ r.2.2.oracle, o = none) := by
  unfold transportWrite
  split
  · rename_i h; simp [h]
  · rename_i o h; simp [h]
  · rename_i k o h
    refine ⟨rfl, rfl, rfl, by simp; omega, ?_, by simp, ?_⟩
    · simp only [List.length_take]
      congr 1
      rw [List.take_eq_take_iff]; omega
    · intro hall; have := hall (some k) (by simp [h]); cases this

theorem bwFlush_spec (all : Bytes) (s : BW) (h : s.Inv all) :
    (bwFlush s).Inv all ∧ s.wire <+: (bwFlush s).wire ∧ (bwFlush s).cap = s.cap ∧
    (s.err = true → bwFlush s = s) ∧ ((bwFlush s).err = false → (bwFlush s).buf = []) ∧
    ((∀ o ∈ s.oracle, o = none) → (bwFlush s).err = s.err ∧ ∀ o ∈ (bwFlush s).oracle, o = none) := by
  unfold bwFlush
  by_cases he : s.err = true
  · rw [if_pos he]
    exact ⟨h, List.prefix_refl _, rfl, fun _ => rfl, fun h0 => (by rw [he] at h0; cases h0), fun hall => ⟨rfl, hall⟩⟩
  · rw [if_neg he]
    have he' : s.err = false := by simpa using he
    by_cases hb : s.buf.length = 0
    · rw [if_pos hb]
      exact ⟨h, List.prefix_refl _, rfl, fun _ => rfl, fun _ => List.length_eq_zero_iff.1 hb,
        fun hall => ⟨rfl, hall⟩⟩
    · rw [if_neg hb]
      have ht := transportWrite_spec s.buf s
      have hg := h.good he'
      rcases hr : transportWrite s.buf s with ⟨n, e, s'⟩
      rw [hr] at ht
      simp only at ht
      obtain ⟨t1, t2, t3, t4, t5, t6, t7⟩ := ht
      cases e with
      | true =>
        simp only
        refine ⟨⟨by rw [t1]; exact h.cap, by simp, by simp, fun _ => ?_⟩, ?_, t1, ?_, by simp, ?_⟩
        · rw [t5, ← hg]
          exact (List.prefix_append_right_inj _).2 (List.take_prefix _ _)
        · rw [t5]; exact List.prefix_append _ _
        · intro h0; rw [he'] at h0; cases h0
        · intro hall; have := (t7 hall).1; cases this
      | false =>
        simp only
        have hn := t6 rfl
        refine ⟨⟨by rw [t1]; exact h.cap, by simp, fun _ => ?_, ?_⟩, ?_, t1, ?_, by simp, ?_⟩
        · simp only [List.append_nil]; rw [t5, hn, List.take_length, hg]
        · intro h0; rw [t3, he'] at h0; cases h0
        · rw [t5]; exact List.prefix_append _ _
        · intro h0; rw [he'] at h0; cases h0
        · intro hall; exact ⟨t3, (t7 hall).2⟩

theorem bwWrite_err (direct : Bool) (fuel : Nat) (p : Bytes) (s : BW) (h : s.err = true) :
    bwWrite direct fuel p s = s := by
  cases fuel with
  | zero => rfl
  | succ fuel => rw [bwWrite]; simp [h]

theorem bwWrite_spec (direct : Bool) (fuel : Nat) (p : Bytes) (s : BW) (all : Bytes) (h : s.Inv all)
    (hf : 2 * p.length + (if s.buf.length = 0 then 0 else 1) < fuel) :
    (bwWrite direct fuel p s).Inv (all ++ p) ∧ s.wire <+: (bwWrite direct fuel p s).wire ∧
    (s.err = true → bwWrite direct fuel p s = s) ∧
    ((∀ o ∈ s.oracle, o = none) → (bwWrite direct fuel p s).err = s.err ∧
      ∀ o ∈ (bwWrite direct fuel p s).oracle, o = none) := by
  induction fuel generalizing p s all with
  | zero => omega
  | succ fuel ih =>
    unfold bwWrite
    by_cases he : s.err = true
    · have : ¬ (p.length > s.cap - s.buf.length ∧ s.err = false) := by simp [he]
      rw [if_neg this, if_pos he]
      refine ⟨⟨h.cap, by simp [he], by simp [he], fun h0 => ?_⟩, List.prefix_refl _, fun _ => rfl,
        fun hall => ⟨rfl, hall⟩⟩
      exact (h.bad h0).trans (List.prefix_append _ _)
    · have he' : s.err = false := by simpa using he
      by_cases hp : p.length > s.cap - s.buf.length
      · rw [if_pos ⟨hp, he'⟩]
        by_cases hd : (direct = true ∧ s.buf.length = 0)
        · rw [if_pos hd]
          have ht := transportWrite_spec p s
          rcases hr : transportWrite p s with ⟨n, e, s'⟩
          rw [hr] at ht
          simp only at ht ⊢
          obtain ⟨t1, t2, t3, t4, t5, t6, t7⟩ := ht
          have hb0 := List.length_eq_zero_iff.1 hd.2
          have hg := h.good he'
          rw [hb0, List.append_nil] at hg
          have hI : BW.Inv (all ++ p.take n) { s' with err := e } := by
            refine ⟨by simp only [t1]; exact h.cap, fun _ => by simp [t2, hb0], fun _ => ?_, fun _ => ?_⟩
            · simp only [t2, hb0, t5, hg, List.append_nil]
            · simp only [t5, hg]; exact List.prefix_refl _
          cases e with
          | true =>
            rw [bwWrite_err _ _ _ _ rfl]
            refine ⟨⟨hI.cap, by simp, by simp, fun _ => ?_⟩, ?_, fun h0 => absurd h0 he, ?_⟩
            · exact (hI.bad rfl).trans ((List.prefix_append_right_inj _).2 (List.take_prefix _ _))
            · simp only [t5]; exact List.prefix_append _ _
            · intro hall; have := (t7 hall).1; cases this
          | false =>
          have := ih (p.drop n) { s' with err := false } (all ++ p.take n) hI (by
            simp only [t2, hb0, List.length_nil, if_true, List.length_drop]
            rw [if_pos hd.2] at hf
            have := t6 rfl; omega)
          obtain ⟨i1, i2, i3, i4⟩ := this
          refine ⟨?_, ?_, fun h0 => absurd h0 he, ?_⟩
          · rw [List.append_assoc, List.take_append_drop] at i1
            exact i1
          · have : s.wire <+: s'.wire := by rw [t5]; exact List.prefix_append _ _
            exact this.trans i2
          · intro hall
            obtain ⟨a1, a2⟩ := t7 hall
            have := i4 a2
            rw [this.1]
            exact ⟨by simp only [he'], this.2⟩
        · rw [if_neg hd]
          simp only
          have hfit := h.fit he'
          have hI : BW.Inv (all ++ p.take (s.cap - s.buf.length))
              { s with buf := s.buf ++ p.take (s.cap - s.buf.length) } := by
            refine ⟨h.cap, fun _ => by simp; omega, fun _ => ?_, fun h0 => absurd h0 he⟩
            have := h.good he'
            simp only [← List.append_assoc, this]
          obtain ⟨f1, f2, f3, f4, f5, f6⟩ := bwFlush_spec _ _ hI
          by_cases hfe : (bwFlush { s with buf := s.buf ++ p.take (s.cap - s.buf.length) }).err = true
          · -- flush failed: the next iteration stops
            have hstop : ∀ q fuel, bwWrite direct fuel q
                (bwFlush { s with buf := s.buf ++ p.take (s.cap - s.buf.length) }) =
                (bwFlush { s with buf := s.buf ++ p.take (s.cap - s.buf.length) }) := by
              intro q fuel
              cases fuel with
              | zero => rfl
              | succ fuel => rw [bwWrite]; simp [hfe]
            rw [hstop]
            refine ⟨⟨f1.cap, by simp [hfe], by simp [hfe], fun _ => ?_⟩, f2, fun h0 => absurd h0 he, ?_⟩
            · refine (f1.bad hfe).trans ?_
              exact (List.prefix_append_right_inj _).2 (List.take_prefix _ _)
            · intro hall; exact f6 hall
          · have hfe' : (bwFlush { s with buf := s.buf ++ p.take (s.cap - s.buf.length) }).err = false := by
              simpa using hfe
            have hb1 := f5 hfe'
            have := ih (p.drop (s.cap - s.buf.length))
              (bwFlush { s with buf := s.buf ++ p.take (s.cap - s.buf.length) }) _ f1 (by
                rw [hb1]
                simp only [List.length_nil, if_true, List.length_drop]
                have := h.cap
                split at hf <;> omega)
            obtain ⟨i1, i2, i3, i4⟩ := this
            refine ⟨?_, f2.trans i2, fun h0 => absurd h0 he, ?_⟩
            · rw [List.append_assoc, List.take_append_drop] at i1
              exact i1
            · intro hall
              have := i4 (f6 hall).2
              rw [this.1, (f6 hall).1]
              exact ⟨rfl, this.2⟩
      · rw [if_neg (by simp [hp]), if_neg he]
        refine ⟨⟨h.cap, fun _ => ?_, fun _ => ?_, fun h0 => absurd h0 he⟩, List.prefix_refl _,
          fun h0 => absurd h0 he, fun hall => ⟨rfl, hall⟩⟩
        · have := h.fit he'; simp; omega
        · simp only [← List.append_assoc, h.good he']

theorem bwPieces_spec (ps : List (Bool × Bytes)) (s : BW) (all : Bytes) (h : s.Inv all) :
    (bwPieces ps s).Inv (all ++ (ps.map (·.2)).flatten) ∧ s.wire <+: (bwPieces ps s).wire ∧
    (s.err = true → bwPieces ps s = s) ∧
    ((∀ o ∈ s.oracle, o = none) → (bwPieces ps s).err = s.err ∧
      ∀ o ∈ (bwPieces ps s).oracle, o = none) := by
  induction ps generalizing s all with
  | nil =>
    refine ⟨by simpa [bwPieces] using h, List.prefix_refl _, fun _ => rfl, fun hall => ⟨rfl, hall⟩⟩
  | cons dp ps ih =>
    obtain ⟨d, p⟩ := dp
    have hw := bwWrite_spec d (2 * p.length + 3) p s all h (by split <;> omega)
    obtain ⟨w1, w2, w3, w4⟩ := hw
    unfold bwPieces
    simp only
    by_cases he : (bwWrite d (2 * p.length + 3) p s).err = true
    · rw [if_pos he]
      refine ⟨⟨w1.cap, by simp [he], by simp [he], fun _ => ?_⟩, w2, w3, w4⟩
      refine (w1.bad he).trans ?_
      simp [← List.append_assoc]
    · rw [if_neg he]
      obtain ⟨i1, i2, i3, i4⟩ := ih _ _ w1
      refine ⟨by simpa [← List.append_assoc] using i1, w2.trans i2, ?_, ?_⟩
      · intro h0; rw [w3 h0] at he; exact absurd h0 he
      · intro hall
        obtain ⟨a1, a2⟩ := w4 hall
        have := i4 a2
        rw [this.1, a1]; exact ⟨rfl, this.2⟩

theorem encReplacement_eq (b : UInt8) :
    (encReplacement b = none ∧ encByte b = [b]) ∨ encReplacement b = some (encByte b) := by
  unfold encReplacement encByte encodeTable
  simp only [List.find?]
  by_cases h1 : b = 92
  · subst h1; right; rfl
  · by_cases h2 : b = 13
    · subst h2; right; rfl
    · by_cases h3 : b = 10
      · subst h3; right; rfl
      · by_cases h4 : b = 58
        · subst h4; right; rfl
        · left
          have e : ∀ c : UInt8, b ≠ c → (([c] : Bytes) == [b]) = false := by
            intro c hc; simpa using fun h => hc h.symm
          simp [e _ h1, e _ h2, e _ h3, e _ h4, h1, h2, h3, h4]

theorem encPieces_flatten (run s : Bytes) :
    ((encPieces run s).map (·.2)).flatten = run ++ encodeValue s := by
  induction s generalizing run with
  | nil =>
    unfold encPieces
    split
    · rename_i h; rw [List.length_eq_zero_iff.1 h]; rfl
    · simp
  | cons b bs ih =>
    unfold encPieces
    rw [encodeValue_cons]
    rcases encReplacement_eq b with ⟨h1, h2⟩ | h1
    · rw [h1, h2]
      simp only
      rw [ih]; simp
    · rw [h1]
      simp only
      by_cases h : run.length = 0
      · rw [List.length_eq_zero_iff.1 h]; simp [ih]
      · simp [h, ih]

theorem framePieces_flatten (f : Option Frame) :
    ((framePieces f).map (·.2)).flatten = writeFrame f := by
  cases f with
  | none => rfl
  | some f =>
    unfold framePieces writeFrame
    have hh : (((f.header.map (fun e => encPieces [] e.1 ++ [(true, [58])] ++ encPieces [] e.2 ++
        [(true, [10])])).flatten).map (·.2)).flatten = writeHeaders f.header := by
      induction f.header with
      | nil => rfl
      | cons e hs ih =>
        obtain ⟨k, v⟩ := e
        simp only [List.map_cons, List.flatten_cons, List.map_append, List.flatten_append, ih,
          encPieces_flatten, writeHeaders]
        simp
    simp only [List.map_append, List.flatten_append, hh]
    split
    · simp
    · simp

theorem bwFrame_spec (f : Option Frame) (s : BW) (all : Bytes) (h : s.Inv all) :
    (bwFrame f s).2.Inv (all ++ writeFrame f) ∧ s.wire <+: (bwFrame f s).2.wire ∧
    ((bwFrame f s).1 = true ↔ (bwFrame f s).2.err = false) ∧
    ((bwFrame f s).1 = true → (bwFrame f s).2.wire = all ++ writeFrame f) ∧
    (s.err = true → bwFrame f s = (false, s)) ∧
    ((∀ o ∈ s.oracle, o = none) → s.err = false → (bwFrame f s).1 = true ∧
      ∀ o ∈ (bwFrame f s).2.oracle, o = none) := by
  obtain ⟨p1, p2, p3, p4⟩ := bwPieces_spec (framePieces f) s all h
  rw [framePieces_flatten] at p1
  unfold bwFrame
  simp only
  by_cases he : (bwPieces (framePieces f) s).err = true
  · rw [if_pos he]
    refine ⟨p1, p2, by simp [he], by simp, fun h0 => by rw [p3 h0], ?_⟩
    intro hall h0
    rw [(p4 hall).1, h0] at he; cases he
  · rw [if_neg he]
    obtain ⟨f1, f2, f3, f4, f5, f6⟩ := bwFlush_spec _ _ p1
    refine ⟨f1, p2.trans f2, by simp, ?_, ?_, ?_⟩
    · intro h0
      simp at h0
      have := f1.good h0
      rwa [f5 h0, List.append_nil] at this
    · intro h0; rw [p3 h0] at he; exact absurd h0 he
    · intro hall h0
      obtain ⟨a1, a2⟩ := p4 hall
      obtain ⟨b1, b2⟩ := f6 a2
      simp [b1, a1, h0]
      exact b2

end Stomp
