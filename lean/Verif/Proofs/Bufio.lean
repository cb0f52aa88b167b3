import Verif.Model.Bufio
import Verif.Proofs.Codec
/-! Simulation of the flat reader by the buffered, chunked reader. -/
namespace Stomp

/-- The transport never makes 100 empty reads in a row. -/
def NoStall (cs : List Bytes) : Prop :=
  ∀ suf, suf <:+ cs → ¬ (List.replicate 100 ([] : Bytes)) <+: suf

def BR.tot (s : BR) : Bytes := s.buf ++ s.chunks.flatten

def BR.chunkSum (s : BR) : Nat := (s.chunks.map (fun c => c.length + 1)).sum

structure BR.Inv (s : BR) : Prop where
  cap : 0 < s.cap
  err : s.err = none ∨ (s.err = some .eof ∧ s.chunks = [])
  stall : NoStall s.chunks

theorem NoStall.tail {c : Bytes} {cs : List Bytes} (h : NoStall (c :: cs)) : NoStall cs :=
  fun suf hs => h suf (hs.trans (List.suffix_cons c cs))

theorem NoStall.shrink {c d : Bytes} {cs : List Bytes} (h : NoStall (c :: cs)) (hd : d ≠ []) :
    NoStall (d :: cs) := by
  intro suf hs hp
  rcases List.suffix_cons_iff.1 hs with e | hs'
  · subst e
    obtain ⟨t, ht⟩ := hp
    rw [show (100 : Nat) = 99 + 1 from rfl, List.replicate_succ] at ht
    simp at ht
    exact hd ht.1
  · exact NoStall.tail h suf hs' hp

theorem transportRead_spec (n : Nat) (cs : List Bytes) (d : Bytes) (cs' : List Bytes) (hn : 0 < n)
    (h : transportRead n cs = some (d, cs')) (hs : NoStall cs) :
    cs.flatten = d ++ cs'.flatten ∧ NoStall cs' ∧ d.length ≤ n ∧
    (cs'.map (fun c => c.length + 1)).sum + d.length ≤ (cs.map (fun c => c.length + 1)).sum ∧
    (cs'.map (fun c => c.length + 1)).sum < (cs.map (fun c => c.length + 1)).sum ∧
    (d = [] → cs = [] :: cs') := by
  cases cs with
  | nil => simp [transportRead] at h
  | cons c cs =>
    simp only [transportRead, Option.some.injEq, Prod.mk.injEq] at h
    obtain ⟨rfl, rfl⟩ := h
    by_cases hc : c.length ≤ n
    · rw [if_pos hc, List.take_of_length_le hc]
      refine ⟨by simp, hs.tail, hc, ?_, ?_, ?_⟩
      · simp only [List.map_cons, List.sum_cons]; omega
      · simp only [List.map_cons, List.sum_cons]; omega
      · intro e; rw [e]
    · rw [if_neg hc]
      have hne : c.drop n ≠ [] := by
        intro e; have := congrArg List.length e; simp at this; omega
      refine ⟨by simp [← List.append_assoc], hs.shrink hne, by simp; omega, ?_, ?_, ?_⟩
      · simp; omega
      · simp; omega
      · intro e
        have := congrArg List.length e
        rw [List.length_take, List.length_nil] at this
        omega

theorem fillLoop_spec (k : Nat) (s : BR) (hi : s.Inv) (he : s.err = none) (hb : s.buf.length < s.cap)
    (hk : ¬ (List.replicate k ([] : Bytes)) <+: s.chunks) :
    (fillLoop k s).Inv ∧ (fillLoop k s).tot = s.tot ∧ (fillLoop k s).cap = s.cap ∧
    (fillLoop k s).buf.length ≤ s.cap ∧
    ((fillLoop k s).chunkSum < s.chunkSum ∨ (fillLoop k s).err = some .eof) ∧
    (fillLoop k s).chunkSum ≤ s.chunkSum := by
  induction k generalizing s with
  | zero => exact absurd (List.nil_prefix) hk
  | succ k ih =>
    unfold fillLoop
    have hn : 0 < s.cap - s.buf.length := by omega
    cases ht : transportRead (s.cap - s.buf.length) s.chunks with
    | none =>
      have hc : s.chunks = [] := by
        cases hcs : s.chunks with
        | nil => rfl
        | cons c cs => rw [hcs] at ht; simp [transportRead] at ht
      exact ⟨⟨hi.cap, Or.inr ⟨rfl, hc⟩, hi.stall⟩, rfl, rfl, Nat.le_of_lt hb, Or.inr rfl, Nat.le_refl _⟩
    | some p =>
      obtain ⟨d, cs⟩ := p
      obtain ⟨h1, h2, h3, h4, h5, h6⟩ := transportRead_spec _ _ _ _ hn ht hi.stall
      simp only
      split
      · refine ⟨⟨hi.cap, Or.inl he, h2⟩, ?_, rfl, ?_, Or.inl h5, Nat.le_of_lt h5⟩
        · simp [BR.tot, h1]
        · simp; omega
      · rename_i hd
        have hd0 : d = [] := List.length_eq_zero_iff.1 (by omega)
        subst hd0
        have hcs := h6 rfl
        have := ih { s with buf := s.buf ++ [], chunks := cs } ⟨hi.cap, Or.inl he, h2⟩ he
          (by simpa using hb) (by
            intro hp
            apply hk
            rw [hcs, List.replicate_succ]
            exact List.cons_prefix_cons.2 ⟨rfl, hp⟩)
        obtain ⟨i1, i2, i3, i4, i5, i6⟩ := this
        refine ⟨i1, ?_, i3, i4, ?_, ?_⟩
        · rw [i2]; simp [BR.tot, h1]
        · rcases i5 with i5 | i5
          · left; exact Nat.lt_trans i5 h5
          · right; exact i5
        · exact Nat.le_trans i6 (Nat.le_of_lt h5)

theorem fill_spec (s : BR) (hi : s.Inv) (he : s.err = none) (hb : s.buf.length < s.cap) :
    (fill s).Inv ∧ (fill s).tot = s.tot ∧ (fill s).cap = s.cap ∧ (fill s).buf.length ≤ s.cap ∧
    ((fill s).chunkSum < s.chunkSum ∨ (fill s).err = some .eof) ∧
    (fill s).chunkSum ≤ s.chunkSum :=
  fillLoop_spec 100 s hi he hb (hi.stall _ (List.suffix_refl _))

theorem readBytes_append_none (d : UInt8) (a b : Bytes) (h : readBytes d a = none) :
    readBytes d (a ++ b) = match readBytes d b with
      | none => none
      | some (l, r) => some (a ++ l, r) := by
  induction a with
  | nil => simp only [List.nil_append]; cases readBytes d b <;> rfl
  | cons c a ih =>
    simp only [readBytes, List.cons_append] at h ⊢
    split at h
    · cases h
    · rename_i hc
      rw [if_neg hc]
      split at h
      · rename_i hr
        rw [ih hr]
        cases readBytes d b <;> rfl
      · cases h

def SliceOk (d : UInt8) (s : BR) : SliceRes → Prop
  | .line l s' => readBytes d s.tot = some (l, s'.tot) ∧ s'.Inv ∧ s'.cap = s.cap
  | .full l s' => s.tot = l ++ s'.tot ∧ readBytes d l = none ∧ l ≠ [] ∧ s'.Inv ∧ s'.cap = s.cap
  | .err e => e = .eof ∧ readBytes d s.tot = none

theorem readSlice_spec (d : UInt8) (fuel : Nat) (s : BR) (hi : s.Inv)
    (hf : s.chunkSum + 1 < fuel ∨ (s.err = some .eof ∧ 0 < fuel)) : SliceOk d s (readSlice d fuel s) := by
  induction fuel generalizing s with
  | zero => omega
  | succ fuel ih =>
    unfold readSlice
    cases hb : readBytes d s.buf with
    | some p =>
      obtain ⟨l, r⟩ := p
      exact ⟨readBytes_extend _ _ _ _ _ hb, ⟨hi.cap, hi.err, hi.stall⟩, rfl⟩
    | none =>
      simp only
      rcases hi.err with he | ⟨he, hc⟩
      · rw [he]
        simp only
        split
        · rename_i hge
          refine ⟨by simp [BR.tot], hb, ?_, ⟨hi.cap, Or.inl rfl, hi.stall⟩, rfl⟩
          intro e; rw [e] at hge; simp at hge; have := hi.cap; omega
        · rename_i hlt
          obtain ⟨i1, i2, i3, i4, i5, i6⟩ := fill_spec s hi he (by omega)
          have := ih (fill s) i1 (by
            rcases hf with hf | ⟨hf, _⟩
            · rcases i5 with i5 | i5
              · left; omega
              · right; exact ⟨i5, by omega⟩
            · rw [he] at hf; cases hf)
          cases hr : readSlice d fuel (fill s) with
          | line l s' => rw [hr] at this; simp only [SliceOk, i2, i3] at this ⊢; exact this
          | full l s' => rw [hr] at this; simp only [SliceOk, i2, i3] at this ⊢; exact this
          | err e => rw [hr] at this; simp only [SliceOk, i2] at this ⊢; exact this
      · rw [he]
        simp only [SliceOk, BR.tot, hc]
        exact ⟨trivial, by simpa using hb⟩

theorem BR.fuel_gt (s : BR) : s.chunkSum + 1 < s.fuel ∧ s.tot.length + 1 < s.fuel := by
  have h : s.chunks.flatten.length ≤ s.chunkSum := by
    unfold BR.chunkSum
    induction s.chunks with
    | nil => simp
    | cons c cs ih => simp at ih ⊢; omega
  have e : s.fuel = s.buf.length + s.chunkSum + 2 := rfl
  have e2 : s.tot.length = s.buf.length + s.chunks.flatten.length := by simp [BR.tot]
  omega

theorem bufReadBytes_spec (d : UInt8) (fuel : Nat) (acc : Bytes) (s : BR) (hi : s.Inv)
    (hf : s.tot.length < fuel) :
    match readBytes d s.tot with
    | none => bufReadBytes d fuel acc s = .error .eof
    | some (l, r) => ∃ s', bufReadBytes d fuel acc s = .ok (acc ++ l, s') ∧ s'.Inv ∧ s'.tot = r ∧
        s'.cap = s.cap := by
  induction fuel generalizing acc s with
  | zero => omega
  | succ fuel ih =>
    have hs := readSlice_spec d s.fuel s hi (Or.inl s.fuel_gt.1)
    unfold bufReadBytes
    cases hr : readSlice d s.fuel s with
    | line l s' =>
      rw [hr] at hs
      simp only [SliceOk] at hs
      rw [hs.1]
      exact ⟨s', rfl, hs.2.1, rfl, hs.2.2⟩
    | full l s' =>
      rw [hr] at hs
      simp only [SliceOk] at hs
      obtain ⟨h1, h2, h3, h4, h5⟩ := hs
      have hl : 0 < l.length := List.length_pos_iff.2 h3
      have := ih (acc ++ l) s' h4 (by
        have := congrArg List.length h1
        simp at this; omega)
      rw [h1, readBytes_append_none _ _ _ h2]
      cases hq : readBytes d s'.tot with
      | none => rw [hq] at this; exact this
      | some p =>
        obtain ⟨l', r'⟩ := p
        rw [hq] at this
        obtain ⟨s'', e1, e2, e3, e4⟩ := this
        refine ⟨s'', ?_, e2, e3, by rw [e4, h5]⟩
        simp only
        rw [e1, List.append_assoc]
    | err e =>
      rw [hr] at hs
      simp only [SliceOk] at hs
      rw [hs.2, hs.1]

theorem cReadLine_spec (s : BR) (hi : s.Inv) :
    match readLine s.tot with
    | none => cReadLine s = .error (.read .eof)
    | some (l, r) => ∃ s', cReadLine s = .ok (l, s') ∧ s'.Inv ∧ s'.tot = r ∧ s'.cap = s.cap := by
  have hb := bufReadBytes_spec 10 s.fuel [] s hi (by have := s.fuel_gt.2; omega)
  unfold readLine cReadLine
  cases hr : readBytes 10 s.tot with
  | none => rw [hr] at hb; simp only [hb]; rfl
  | some p =>
    obtain ⟨l, r⟩ := p
    rw [hr] at hb
    obtain ⟨s', e1, e2, e3, e4⟩ := hb
    exact ⟨s', by rw [e1]; rfl, e2, e3, e4⟩

theorem cReadHeaders_spec (fuel fuel' : Nat) (s : BR) (h : Header) (hi : s.Inv)
    (hf : s.tot.length < fuel) (hf' : s.tot.length < fuel') :
    match readHeaders fuel' s.tot h with
    | .error e => cReadHeaders fuel s h = .error (.read e)
    | .ok (h', r) => ∃ s', cReadHeaders fuel s h = .ok (h', s') ∧ s'.Inv ∧ s'.tot = r ∧
        s'.cap = s.cap := by
  induction fuel generalizing s h fuel' with
  | zero => omega
  | succ fuel ih =>
    cases fuel' with
    | zero => omega
    | succ fuel' =>
      have hl := cReadLine_spec s hi
      unfold readHeaders cReadHeaders
      cases hr : readLine s.tot with
      | none => rw [hr] at hl; simp only [hl]
      | some p =>
        obtain ⟨line, r⟩ := p
        rw [hr] at hl
        obtain ⟨s', e1, e2, e3, e4⟩ := hl
        have hlt := readLine_lt _ _ _ hr
        simp only [e1]
        by_cases h0 : line.length = 0
        · simp only [h0, if_true]
          exact ⟨s', rfl, e2, e3, e4⟩
        · simp only [h0, if_false]
          cases hp : parseHeaderLine line with
          | none => rfl
          | some kv =>
            obtain ⟨k, v⟩ := kv
            simp only
            have := ih fuel' s' (Header.add h k v) e2 (by rw [e3]; omega) (by rw [e3]; omega)
            rw [e3] at this
            rw [e4] at this
            exact this

theorem bufRead_spec (n : Nat) (s : BR) (hi : s.Inv) (hn : 0 < n) :
    (s.tot = [] ∧ s.chunks = [] ∧ bufRead n s = .error .eof) ∨
    ∃ d s', bufRead n s = .ok (d, s') ∧ s.tot = d ++ s'.tot ∧ d.length ≤ n ∧ s'.Inv ∧ s'.cap = s.cap ∧
      s'.buf.length + s'.chunkSum < s.buf.length + s.chunkSum := by
  unfold bufRead
  by_cases hb : s.buf.length = 0
  · have hb0 := List.length_eq_zero_iff.1 hb
    rw [if_pos hb]
    rcases hi.err with he | ⟨he, hc⟩
    · rw [he]
      simp only
      split
      · cases ht : transportRead n s.chunks with
        | none =>
          left
          have hc : s.chunks = [] := by
            cases hcs : s.chunks with
            | nil => rfl
            | cons c cs => rw [hcs] at ht; simp [transportRead] at ht
          exact ⟨by simp [BR.tot, hb0, hc], hc, rfl⟩
        | some p =>
          obtain ⟨d, cs⟩ := p
          right
          obtain ⟨h1, h2, h3, h4, h5, h6⟩ := transportRead_spec _ _ _ _ hn ht hi.stall
          refine ⟨d, { s with err := none, chunks := cs }, rfl, ?_, h3, ⟨hi.cap, Or.inl rfl, h2⟩, rfl, ?_⟩
          · simp [BR.tot, h1, hb0]
          · have : (BR.chunkSum { s with err := none, chunks := cs }) < s.chunkSum := h5
            simp only; omega
      · cases ht : transportRead s.cap s.chunks with
        | none =>
          left
          have hc : s.chunks = [] := by
            cases hcs : s.chunks with
            | nil => rfl
            | cons c cs => rw [hcs] at ht; simp [transportRead] at ht
          exact ⟨by simp [BR.tot, hb0, hc], hc, rfl⟩
        | some p =>
          obtain ⟨d, cs⟩ := p
          right
          obtain ⟨h1, h2, h3, h4, h5, h6⟩ := transportRead_spec _ _ _ _ hi.cap ht hi.stall
          have e5 : (BR.chunkSum { s with err := none, chunks := cs }) < s.chunkSum := h5
          have e4 : (BR.chunkSum { s with err := none, chunks := cs }) + d.length ≤ s.chunkSum := h4
          simp only
          split
          · rename_i hd
            have hd0 := List.length_eq_zero_iff.1 hd
            refine ⟨[], { s with err := none, chunks := cs }, rfl, ?_, by simp, ⟨hi.cap, Or.inl rfl, h2⟩, rfl, ?_⟩
            · simp [BR.tot, h1, hd0]
            · simp only; omega
          · rename_i hd
            refine ⟨d.take n, { s with err := none, buf := d.drop n, chunks := cs }, rfl, ?_, ?_,
              ⟨hi.cap, Or.inl rfl, h2⟩, rfl, ?_⟩
            · simp [BR.tot, h1, hb0, ← List.append_assoc]
            · simp; omega
            · have e6 : (BR.chunkSum { s with err := none, buf := d.drop n, chunks := cs }) =
                (BR.chunkSum { s with err := none, chunks := cs }) := rfl
              rw [e6]
              simp only [List.length_drop]
              omega
    · left
      rw [he]
      exact ⟨by simp [BR.tot, hb0, hc], hc, rfl⟩
  · right
    rw [if_neg hb]
    refine ⟨s.buf.take n, { s with buf := s.buf.drop n }, rfl, ?_, by simp; omega,
      ⟨hi.cap, hi.err, hi.stall⟩, rfl, ?_⟩
    · simp [BR.tot, ← List.append_assoc]
    · have : (BR.chunkSum { s with buf := s.buf.drop n }) = s.chunkSum := rfl
      rw [this]
      simp only [List.length_drop]; omega

theorem cBodyLoop_spec (fuel want : Nat) (acc : Bytes) (s : BR) (hi : s.Inv)
    (hf : s.buf.length + s.chunkSum < fuel) :
    (s.tot.length < want ∧ cBodyLoop fuel want acc s = .error .eof) ∨
    (want ≤ s.tot.length ∧ ∃ s', cBodyLoop fuel want acc s = .ok (acc ++ s.tot.take want, s') ∧ s'.Inv ∧
      s'.tot = s.tot.drop want ∧ s'.cap = s.cap) := by
  induction fuel generalizing want acc s with
  | zero => omega
  | succ fuel ih =>
    unfold cBodyLoop
    by_cases hw : want = 0
    · right
      rw [if_pos hw]
      exact ⟨by omega, s, by simp [hw], hi, by simp [hw], rfl⟩
    · rw [if_neg hw]
      rcases bufRead_spec want s hi (by omega) with ⟨h1, _, h2⟩ | ⟨d, s', h1, h2, h3, h4, h5, h6⟩
      · left
        rw [h2, h1]; exact ⟨by simp; omega, rfl⟩
      · rw [h1]
        simp only
        have hlen := congrArg List.length h2
        simp only [List.length_append] at hlen
        rcases ih (want - d.length) (acc ++ d) s' h4 (by omega) with ⟨i1, i2⟩ | ⟨i1, s'', i2, i3, i4, i5⟩
        · left; exact ⟨by omega, i2⟩
        · right
          refine ⟨by omega, s'', ?_, i3, ?_, by rw [i5, h5]⟩
          · rw [i2, h2, List.take_append, List.take_of_length_le h3, List.append_assoc]
          · rw [i4, h2, List.drop_append, List.drop_of_length_le h3, List.nil_append]

theorem bufReadByte_spec (fuel : Nat) (s : BR) (hi : s.Inv)
    (hf : s.chunkSum + 1 < fuel ∨ (s.err = some .eof ∧ 0 < fuel)) :
    match s.tot with
    | [] => bufReadByte fuel s = .error .eof
    | t :: r => ∃ s', bufReadByte fuel s = .ok (t, s') ∧ s'.Inv ∧ s'.tot = r ∧ s'.cap = s.cap := by
  induction fuel generalizing s with
  | zero => omega
  | succ fuel ih =>
    unfold bufReadByte
    cases hb : s.buf with
    | cons b bs =>
      have : s.tot = b :: (bs ++ s.chunks.flatten) := by simp [BR.tot, hb]
      rw [this]
      exact ⟨{ s with buf := bs }, rfl, ⟨hi.cap, hi.err, hi.stall⟩, rfl, rfl⟩
    | nil =>
      simp only
      rcases hi.err with he | ⟨he, hc⟩
      · rw [he]
        simp only
        obtain ⟨i1, i2, i3, i4, i5, i6⟩ := fill_spec s hi he (by rw [hb]; simpa using hi.cap)
        have := ih (fill s) i1 (by
          rcases hf with hf | ⟨hf, _⟩
          · rcases i5 with i5 | i5
            · left; omega
            · right; exact ⟨i5, by omega⟩
          · rw [he] at hf; cases hf)
        rw [i2, i3] at this
        exact this
      · rw [he]
        have : s.tot = [] := by simp [BR.tot, hb, hc]
        rw [this]

theorem cReadBody_spec (h : Header) (s : BR) (hi : s.Inv) :
    match readBody h s.tot with
    | .error e => cReadBody h s = .error (.read e)
    | .ok (b, r) => ∃ s', cReadBody h s = .ok (b, s') ∧ s'.Inv ∧ s'.tot = r ∧ s'.cap = s.cap := by
  unfold readBody cReadBody
  cases hc : h.contentLength with
  | none =>
    simp only
    have hb := bufReadBytes_spec 0 s.fuel [] s hi (by have := s.fuel_gt.2; omega)
    cases hr : readBytes 0 s.tot with
    | none => rw [hr] at hb; simp only [hb]; rfl
    | some p =>
      obtain ⟨l, r⟩ := p
      rw [hr] at hb
      obtain ⟨s', e1, e2, e3, e4⟩ := hb
      exact ⟨s', by rw [e1]; rfl, e2, e3, e4⟩
  | some o =>
    cases o with
    | none => rfl
    | some n =>
      simp only
      have hfu : s.buf.length + s.chunkSum < s.fuel + 1 := by
        have : s.fuel = s.buf.length + s.chunkSum + 2 := rfl
        omega
      rcases cBodyLoop_spec (s.fuel + 1) n [] s hi hfu with ⟨h1, h2⟩ | ⟨h1, s', h2, h3, h4, h5⟩
      · rw [if_pos h1, h2]; rfl
      · rw [if_neg (by omega), h2]
        simp only
        have hb := bufReadByte_spec s'.fuel s' h3 (Or.inl s'.fuel_gt.1)
        rw [h4] at hb
        cases hd : s.tot.drop n with
        | nil => rw [hd] at hb; simp only [hb]; rfl
        | cons t r =>
          rw [hd] at hb
          obtain ⟨s'', e1, e2, e3, e4⟩ := hb
          simp only [e1]
          by_cases ht : t ≠ 0
          · simp only [if_pos ht]
          · simp only [if_neg ht]
            exact ⟨s'', rfl, e2, e3, by rw [e4, h5]⟩

theorem cReadFrame_spec (s : BR) (hi : s.Inv) :
    match readFrame s.tot with
    | .err e => cReadFrame s = .err (.read e)
    | .heartbeat r => ∃ s', cReadFrame s = .heartbeat s' ∧ s'.Inv ∧ s'.tot = r ∧ s'.cap = s.cap
    | .frame f r => ∃ s', cReadFrame s = .frame f s' ∧ s'.Inv ∧ s'.tot = r ∧ s'.cap = s.cap := by
  have hl := cReadLine_spec s hi
  unfold readFrame cReadFrame
  cases hr : readLine s.tot with
  | none => rw [hr] at hl; simp only [hl]
  | some p =>
    obtain ⟨cmd, r⟩ := p
    rw [hr] at hl
    obtain ⟨s', e1, e2, e3, e4⟩ := hl
    simp only [e1]
    by_cases h0 : cmd.length = 0
    · simp only [h0, if_true]
      exact ⟨s', rfl, e2, e3, e4⟩
    · simp only [h0, if_false]
      by_cases hv : cmd ∉ validCommands
      · simp only [if_pos hv]
      · simp only [if_neg hv]
        have hh := cReadHeaders_spec s'.fuel (r.length + 1) s' [] e2
          (by have := s'.fuel_gt.2; omega) (by rw [e3]; omega)
        rw [e3] at hh
        cases hq : readHeaders (r.length + 1) r [] with
        | error e => rw [hq] at hh; simp only [hh]
        | ok p =>
          obtain ⟨h', r'⟩ := p
          rw [hq] at hh
          obtain ⟨s'', i1, i2, i3, i4⟩ := hh
          simp only [i1]
          have hb := cReadBody_spec h' s'' i2
          rw [i3] at hb
          cases hw : readBody h' r' with
          | error e => rw [hw] at hb; simp only [hb]
          | ok p =>
            obtain ⟨b, r''⟩ := p
            rw [hw] at hb
            obtain ⟨s3, j1, j2, j3, j4⟩ := hb
            simp only [j1]
            exact ⟨s3, rfl, j2, j3, by rw [j4, i4, e4]⟩

theorem cReadAllAux_spec (fuel fuel' : Nat) (s : BR) (hi : s.Inv) (hf : s.tot.length < fuel)
    (hf' : s.tot.length < fuel') :
    cReadAllAux fuel s = ((readAllAux fuel' s.tot).1, .read (readAllAux fuel' s.tot).2) := by
  induction fuel generalizing s fuel' with
  | zero => omega
  | succ fuel ih =>
    cases fuel' with
    | zero => omega
    | succ fuel' =>
      have h := cReadFrame_spec s hi
      have hc := readFrame_consumes s.tot
      unfold cReadAllAux readAllAux
      cases hr : readFrame s.tot with
      | err e => rw [hr] at h; simp only [h]
      | heartbeat r =>
        rw [hr] at h
        obtain ⟨s', e1, e2, e3, e4⟩ := h
        have := hc.2 _ hr
        simp only [e1]
        rw [ih fuel' s' e2 (by rw [e3]; omega) (by rw [e3]; omega), e3]
      | frame f r =>
        rw [hr] at h
        obtain ⟨s', e1, e2, e3, e4⟩ := h
        have := hc.1 _ _ hr
        simp only [e1]
        rw [ih fuel' s' e2 (by rw [e3]; omega) (by rw [e3]; omega), e3]

end Stomp
