import Verif.Proofs.Memory
import Verif.Proofs.Bufio
import Verif.Spec.Memory
/-! # How much memory reading takes -/
namespace Stomp.Mem

open Stomp.Mem.Spec

theorem total_alloc (m : Mem) (d : Bytes) : total (alloc m d) = total m + d.length := by
  simp [total, alloc]

theorem total_set {m : Mem} {a : Nat} {x : Bytes} (h : x.length = (m.getD a []).length) : total (m.set a x) = total m := by
  induction m generalizing a with
  | nil => rfl
  | cons y ys ih =>
    cases a with
    | zero => simp [total] at h ⊢; exact h
    | succ a =>
      have := ih (a := a) (by simpa using h)
      simp [total] at this ⊢; exact this

theorem total_store {m : Mem} {a i : Nat} {d : Bytes} (h : i + d.length ≤ (m.getD a []).length) :
    total (store m a i d) = total m := total_set (patch_length h)

/-! ## Bytes of the stream -/

theorem transportRead_tot {n : Nat} {cs cs' : List Bytes} {d : Bytes} (h : transportRead n cs = some (d, cs')) :
    d ++ cs'.flatten = cs.flatten := by
  cases cs with
  | nil => simp [transportRead] at h
  | cons c cs =>
    simp only [transportRead, Option.some.injEq, Prod.mk.injEq] at h
    obtain ⟨h1, h2⟩ := h
    subst h1; subst h2
    split
    · next hl => rw [List.take_of_length_le hl]; simp
    · simp only [List.flatten_cons]; rw [← List.append_assoc, List.take_append_drop]

theorem fillLoop_tot (k : Nat) (s : BR) : (Stomp.fillLoop k s).tot = s.tot := by
  induction k generalizing s with
  | zero => rfl
  | succ k ih =>
    simp only [Stomp.fillLoop]
    cases ht : transportRead (s.cap - s.buf.length) s.chunks with
    | none => rfl
    | some dc =>
      obtain ⟨d, cs⟩ := dc
      have he := transportRead_tot ht
      have : ({ s with buf := s.buf ++ d, chunks := cs } : BR).tot = s.tot := by
        simp only [BR.tot]; rw [List.append_assoc, he]
      simp only
      split
      · exact this
      · rw [ih, this]

theorem readBytes_tot {d : UInt8} {x l r : Bytes} (h : readBytes d x = some (l, r)) : l ++ r = x := by
  rw [readBytes_index] at h
  cases hi : indexByte d x with
  | none => rw [hi] at h; cases h
  | some i =>
    rw [hi] at h
    simp only [Option.map_some, Option.some.injEq, Prod.mk.injEq] at h
    rw [← h.1, ← h.2, List.take_append_drop]

theorem readSlice_tot (d : UInt8) (fuel : Nat) (s : BR) :
    match Stomp.readSlice d fuel s with
    | .line l s' => l ++ s'.tot = s.tot
    | .full l s' => l ++ s'.tot = s.tot
    | .err _ => True := by
  induction fuel generalizing s with
  | zero => trivial
  | succ fuel ih =>
    simp only [Stomp.readSlice]
    cases hb : readBytes d s.buf with
    | some lr =>
      obtain ⟨l, r⟩ := lr
      simp only [BR.tot]
      rw [← List.append_assoc, readBytes_tot hb]
    | none =>
      simp only
      cases s.err with
      | some e => trivial
      | none =>
        simp only
        split
        · next hh =>
          split at hh
          · cases hh
          · have := ih (Stomp.fill s)
            rw [hh] at this
            simp only at this
            rw [this]; exact fillLoop_tot ..
        · next hh =>
          split at hh
          · cases hh; simp [BR.tot]
          · have := ih (Stomp.fill s)
            rw [hh] at this
            simp only at this
            rw [this]; exact fillLoop_tot ..
        · trivial

theorem bufReadBytes_tot (d : UInt8) (fuel : Nat) (acc : Bytes) (s : BR) {x : Bytes} {s' : BR}
    (h : Stomp.bufReadBytes d fuel acc s = .ok (x, s')) : x ++ s'.tot = acc ++ s.tot := by
  induction fuel generalizing acc s with
  | zero => cases h
  | succ fuel ih =>
    simp only [Stomp.bufReadBytes] at h
    have hs := readSlice_tot d s.fuel s
    cases hr : Stomp.readSlice d s.fuel s with
    | line l s1 =>
      rw [hr] at h hs
      simp only [Except.ok.injEq, Prod.mk.injEq] at h hs
      rw [← h.1, ← h.2, List.append_assoc, hs]
    | full l s1 =>
      rw [hr] at h hs
      simp only at h hs
      rw [ih _ _ h, List.append_assoc, hs]
    | err e => rw [hr] at h; cases h

theorem bufRead_tot {n : Nat} {s s' : BR} {x : Bytes} (h : Stomp.bufRead n s = .ok (x, s')) : x ++ s'.tot = s.tot := by
  unfold Stomp.bufRead at h
  split at h
  · next h0 =>
    have hnil : s.buf = [] := List.eq_nil_of_length_eq_zero h0
    split at h
    · cases h
    · split at h
      · split at h
        · cases h
        · next d cs ht =>
          simp only [Except.ok.injEq, Prod.mk.injEq] at h
          rw [← h.1, ← h.2]
          simp only [BR.tot, hnil, List.nil_append]
          exact transportRead_tot ht
      · split at h
        · cases h
        · next d cs ht =>
          have := transportRead_tot ht
          split at h
          · next hd =>
            simp only [Except.ok.injEq, Prod.mk.injEq] at h
            rw [← h.1, ← h.2]
            simp only [BR.tot, hnil, List.nil_append]
            rw [List.eq_nil_of_length_eq_zero hd] at this
            simpa using this
          · simp only [Except.ok.injEq, Prod.mk.injEq] at h
            rw [← h.1, ← h.2]
            simp only [BR.tot, hnil, List.nil_append]
            rw [← List.append_assoc, List.take_append_drop]
            exact this
  · simp only [Except.ok.injEq, Prod.mk.injEq] at h
    rw [← h.1, ← h.2]
    simp only [BR.tot]
    rw [← List.append_assoc, List.take_append_drop]

theorem cBodyLoop_tot (fuel want : Nat) (acc : Bytes) (s : BR) {x : Bytes} {s' : BR}
    (h : cBodyLoop fuel want acc s = .ok (x, s')) : x ++ s'.tot = acc ++ s.tot := by
  induction fuel generalizing want acc s with
  | zero => cases h
  | succ fuel ih =>
    simp only [cBodyLoop] at h
    split at h
    · simp only [Except.ok.injEq, Prod.mk.injEq] at h
      rw [← h.1, ← h.2]
    · split at h
      · cases h
      · next d s1 hb =>
        rw [ih _ _ _ h, List.append_assoc, bufRead_tot hb]

theorem bufReadByte_tot (fuel : Nat) (s : BR) {t : UInt8} {s' : BR} (h : Stomp.bufReadByte fuel s = .ok (t, s')) :
    t :: s'.tot = s.tot := by
  induction fuel generalizing s with
  | zero => cases h
  | succ fuel ih =>
    simp only [Stomp.bufReadByte] at h
    split at h
    · next b bs hb =>
      simp only [Except.ok.injEq, Prod.mk.injEq] at h
      rw [← h.1, ← h.2]
      simp [BR.tot, hb]
    · split at h
      · cases h
      · rw [ih _ h]; exact fillLoop_tot ..

theorem unencodeValue_length (s : Bytes) : ∀ k, (replacer unencodeTable k s).length ≤ s.length := by
  induction s with
  | nil => intro k; simp [replacer]
  | cons b bs ih =>
    intro k
    cases k with
    | succ k =>
      have := ih k
      simp only [replacer, List.length_cons]; omega
    | zero =>
      simp only [replacer]
      split
      · next p hp =>
        have hm := List.mem_of_find?_eq_some hp
        have h1 : p.2.length = 1 ∧ p.1.length = 2 := by
          simp only [unencodeTable, List.mem_cons, List.not_mem_nil, or_false] at hm
          rcases hm with h | h | h | h <;> subst h <;> exact ⟨rfl, rfl⟩
        have := ih (p.1.length - 1)
        simp only [List.length_append, List.length_cons]
        omega
      · have := ih 0
        simp only [List.length_cons]; omega

/-! ## Bytes of memory -/

theorem slide_total {m : Mem} {s : MBuf} (h : Ok m s) : total (slide m s).1 = total m := by
  unfold slide
  split
  · apply total_store
    rw [h.unread_length]
    have := h.room
    simp only [MBuf.size] at this; omega
  · rfl

theorem fillLoop_total (k : Nat) {m : Mem} {s : MBuf} (h : Ok m s) : total (fillLoop k m s).1 = total m := by
  induction k generalizing m s with
  | zero => rfl
  | succ k ih =>
    simp only [fillLoop]
    cases ht : transportRead (s.size m - s.w) s.chunks with
    | none => rfl
    | some dc =>
      obtain ⟨d, cs⟩ := dc
      have hd := transportRead_length ht
      have hr := h.room
      have hfit : s.w + d.length ≤ (m.getD s.arr []).length := by simp only [MBuf.size] at *; omega
      simp only
      split
      · exact total_store hfit
      · rw [ih ⟨by have := h.rw'; simp only; omega, by
          simp only [MBuf.size, store]; rw [getD_set_self h.there, patch_length hfit]; exact hfit, by
          rw [store_length]; exact h.there⟩]
        exact total_store hfit

theorem fill_total {m : Mem} {s : MBuf} (h : Ok m s) : total (fill m s).1 = total m := by
  unfold fill
  rw [fillLoop_total 100 (slide_spec (b := 0) h).2.1, slide_total h]

theorem readSlice_total (d : UInt8) (fuel : Nat) {m : Mem} {s : MBuf} (h : Ok m s) :
    total (readSlice d fuel m s).1 = total m := by
  induction fuel generalizing m s with
  | zero => rfl
  | succ fuel ih =>
    simp only [readSlice]
    split
    · rfl
    · split
      · rfl
      · split
        · rfl
        · rw [ih (fill_spec (b := 0) h).2.1, fill_total h]

/-- Bytes that the reader has before it. -/
abbrev MBuf.ahead (m : Mem) (s : MBuf) : Nat := (s.value m).tot.length

theorem collect_total (d : UInt8) (fuel : Nat) (parts : List Ref) {m : Mem} {s : MBuf} (h : Ok m s) :
    match (collect d fuel parts m s).2 with
    | .ok (_, _, s') => total (collect d fuel parts m s).1 + s'.ahead (collect d fuel parts m s).1 ≤ total m + s.ahead m
    | .error _ => total (collect d fuel parts m s).1 ≤ total m + s.ahead m := by
  induction fuel generalizing parts m s with
  | zero => exact Nat.le_add_right ..
  | succ fuel ih =>
    simp only [collect]
    have hsp := readSlice_spec (b := 0) d (s.fuel m) h
    have ht := readSlice_total d (s.fuel m) h
    have htot := readSlice_tot d (s.fuel m) (s.value m)
    rcases hres : readSlice d (s.fuel m) m s with ⟨m1, res⟩
    rw [hres] at hsp ht
    simp only at ht
    cases res with
    | err e => simp only; omega
    | line l s1 =>
      simp only at hsp ⊢
      rw [hsp.2.2.2.2] at htot
      simp only at htot
      have := congrArg List.length htot
      simp only [List.length_append] at this
      simp only [MBuf.ahead]; omega
    | full l s1 =>
      simp only at hsp ⊢
      rw [hsp.2.2.2.2] at htot
      simp only at htot
      have hlen := congrArg List.length htot
      simp only [List.length_append] at hlen
      have hok : Ok (alloc m1 (load m1 l)) s1 :=
        hsp.2.1.kept (kept_alloc (Nat.le_refl _) hsp.2.1.there)
      have := ih (parts ++ [fresh m1 (load m1 l)]) hok
      have hv : s1.ahead (alloc m1 (load m1 l)) = s1.ahead m1 := by
        simp only [MBuf.ahead]; rw [value_alloc hsp.2.1]
      rw [total_alloc, hv] at this
      simp only [MBuf.ahead] at this ⊢
      generalize collect d fuel (parts ++ [fresh m1 (load m1 l)]) (alloc m1 (load m1 l)) s1 = c at this ⊢
      rcases c with ⟨m2, res⟩
      cases res with
      | error e => simp only at this ⊢; omega
      | ok r => simp only at this ⊢; omega

theorem bufReadBytes_total (d : UInt8) {m : Mem} {s : MBuf} (h : Ok m s) :
    match (bufReadBytes d m s).2 with
    | .ok (l, s') => l.len + s'.ahead (bufReadBytes d m s).1 = s.ahead m ∧
        total (bufReadBytes d m s).1 + 2 * s'.ahead (bufReadBytes d m s).1 ≤ total m + 2 * s.ahead m
    | .error _ => total (bufReadBytes d m s).1 ≤ total m + s.ahead m := by
  have hsp := bufReadBytes_spec (b := 0) d h (Nat.zero_le _)
  have hc := collect_total d (s.fuel m) [] h
  have hcs := collect_spec (b := 0) d (s.fuel m) [] [] h (Nat.zero_le _) (by simp) rfl
  unfold bufReadBytes at hsp ⊢
  rcases hres : collect d (s.fuel m) [] m s with ⟨m1, res⟩
  rw [hres] at hc hsp hcs
  cases res with
  | error e => exact hc
  | ok r =>
    obtain ⟨ps, l, s1⟩ := r
    simp only at hc hsp hcs ⊢
    obtain ⟨_, _, _, _, _, _, _, hv⟩ := hsp
    have htot := congrArg List.length (bufReadBytes_tot _ _ _ _ hv)
    simp only [List.length_append, load_fresh, List.nil_append] at htot
    have hva : s1.ahead (alloc m1 ((ps.map (load m1)).flatten ++ load m1 l)) = s1.ahead m1 := by
      simp only [MBuf.ahead]; rw [value_alloc hcs.2.1]
    have hlen : (fresh m1 ((ps.map (load m1)).flatten ++ load m1 l)).len =
        ((ps.map (load m1)).flatten ++ load m1 l).length := rfl
    rw [total_alloc, hlen, hva]
    simp only [MBuf.ahead, List.length_append] at *
    rw [value_alloc hcs.2.1] at htot
    omega

theorem stripEol_len (m : Mem) (l : Ref) : (stripEol m l).len ≤ l.len := by
  unfold stripEol
  split
  · simp
  · split <;> simp

theorem readLine_total {m : Mem} {s : MBuf} (h : Ok m s) :
    match (readLine m s).2 with
    | .ok (l, s') => l.len + s'.ahead (readLine m s).1 ≤ s.ahead m ∧
        total (readLine m s).1 + 2 * s'.ahead (readLine m s).1 ≤ total m + 2 * s.ahead m
    | .error _ => total (readLine m s).1 ≤ total m + s.ahead m := by
  have hs := bufReadBytes_total 10 h
  unfold readLine
  rcases hres : bufReadBytes 10 m s with ⟨m1, res⟩
  rw [hres] at hs
  cases res with
  | error e => exact hs
  | ok r =>
    obtain ⟨l, s1⟩ := r
    simp only at hs ⊢
    have := stripEol_len m1 l
    exact ⟨by omega, hs.2⟩

theorem load_le (m : Mem) (r : Ref) : (load m r).length ≤ r.len := by unfold load; simp; omega

theorem unencode_total (keeps : Bool) (m : Mem) (r : Ref) : total (unencode keeps m r).1 ≤ total m + r.len := by
  unfold unencode
  split
  · simp
  · rw [total_alloc]
    have h1 : (unencodeValue (load m r)).length ≤ (load m r).length := unencodeValue_length _ 0
    have h2 := load_le m r
    omega

theorem parseHeaderLine_total (keeps : Bool) (m : Mem) (l : Ref) :
    total (parseHeaderLine keeps m l).1 ≤ total m + l.len := by
  unfold parseHeaderLine
  cases hi : indexByte 58 (load m l) with
  | none => simp
  | some i =>
    cases i with
    | zero => simp
    | succ i =>
      have hlt := indexByte_lt hi
      have hl := load_le m l
      simp only
      have h1 := unencode_total keeps m ⟨l.arr, l.off, i + 1⟩
      have h2 := unencode_total keeps (unencode keeps m ⟨l.arr, l.off, i + 1⟩).1
        ⟨l.arr, l.off + (i + 2), l.len - (i + 2)⟩
      simp only at h1 h2
      omega

theorem readHeaders_total {base : Nat} (keeps : Bool) (fuel : Nat) {m : Mem} {s : MBuf} {h : List (Ref × Ref)}
    (hok : Ok m s) (hbase : base ≤ m.length)
    (ho : ∀ kv ∈ h, Own base s.arr m kv.1 ∧ Own base s.arr m kv.2) :
    match (readHeaders keeps fuel m s h).2 with
    | .ok (_, s') => s'.ahead (readHeaders keeps fuel m s h).1 ≤ s.ahead m ∧
        total (readHeaders keeps fuel m s h).1 + 3 * s'.ahead (readHeaders keeps fuel m s h).1 ≤ total m + 3 * s.ahead m
    | .error _ => total (readHeaders keeps fuel m s h).1 ≤ total m + 3 * s.ahead m := by
  induction fuel generalizing m s h with
  | zero => exact Nat.le_add_right ..
  | succ fuel ih =>
    simp only [readHeaders]
    have hr := readLine_spec hok (Nat.le_refl _)
    have ht := readLine_total hok
    rcases hres : readLine m s with ⟨m1, res⟩
    rw [hres] at hr ht
    cases res with
    | error e => simp only at ht ⊢; omega
    | ok r =>
      obtain ⟨l, s1⟩ := r
      simp only at hr ht ⊢
      obtain ⟨h1, h2, h3, h4, h5, _⟩ := hr
      by_cases hz : l.len = 0
      · simp only [if_pos hz]
        omega
      · simp only [if_neg hz]
        have hal : s.arr < m1.length := by rw [← h3]; exact h2.there
        have hp := parseHeaderLine_spec keeps (h4.mono hbase) hal
        have hpt := parseHeaderLine_total keeps m1 l
        have hgr := parseHeaderLine_grown keeps m1 l
        rcases hpr : parseHeaderLine keeps m1 l with ⟨m2, res⟩
        rw [hpr] at hp hpt hgr
        simp only at hpt hgr
        cases res with
        | none => simp only; omega
        | some kv =>
          simp only at hp ⊢
          obtain ⟨p1, p2, p3, _⟩ := hp
          have hok2 : Ok m2 s1 := h2.kept (b := m1.length) (by rw [h3]; exact p1)
          have ho2 : ∀ e ∈ h ++ [kv], Own base s1.arr m2 e.1 ∧ Own base s1.arr m2 e.2 := by
            intro e he
            rw [h3]
            rcases List.mem_append.mp he with he | he
            · exact ⟨((ho e he).1.kept h1).kept p1, ((ho e he).2.kept h1).kept p1⟩
            · simp only [List.mem_singleton] at he
              subst he
              exact ⟨p2, p3⟩
          have := ih hok2 (Nat.le_trans hbase (Nat.le_trans h1.grows p1.grows)) ho2
          have hv : s1.ahead m2 = s1.ahead m1 := by
            obtain ⟨t, ht⟩ := hgr
            simp only [MBuf.ahead]
            rw [ht, value_grown h2 t]
          rw [hv] at this
          generalize readHeaders keeps fuel m2 s1 (h ++ [kv]) = c at this ⊢
          rcases c with ⟨m3, res⟩
          cases res with
          | error e => simp only at this ⊢; omega
          | ok r => simp only at this ⊢; omega

theorem bufRead_total {p : Ref} {m : Mem} {s : MBuf} (h : Ok m s) (hpa : p.arr ≠ s.arr) (hw : Within m p) :
    total (bufRead p m s).1 = total m := by
  have hr := h.room
  unfold Within at hw
  unfold bufRead
  split
  · split
    · rfl
    · split
      · split
        · rfl
        · next d cs ht =>
          exact total_store (by have := transportRead_length ht; omega)
      · split
        · rfl
        · next d cs ht =>
          split
          · rfl
          · have hd := transportRead_length ht
            simp only
            rw [total_store, total_store (by simp only [MBuf.size] at *; omega)]
            unfold store
            rw [getD_set_ne hpa]
            have := load_le (m.set s.arr (patch (m.getD s.arr []) 0 d)) ⟨s.arr, 0, min p.len d.length⟩
            simp only at this
            omega
  · apply total_store
    have := load_le m ⟨s.arr, s.r, min p.len (s.w - s.r)⟩
    simp only at this
    omega

theorem bodyLoop_total {b : Nat} (fuel got : Nat) {p : Ref} {m : Mem} {s : MBuf} (h : Ok m s)
    (hb : b ≤ p.arr) (hpl : p.arr < m.length) (hpa : p.arr ≠ s.arr) (hw : Within m p) (hle : got ≤ p.len) :
    total (bodyLoop fuel got p m s).1 = total m := by
  induction fuel generalizing got m s with
  | zero => rfl
  | succ fuel ih =>
    simp only [bodyLoop]
    split
    · rfl
    · next hz =>
      have hr := bufRead_spec (b := b) (p := ⟨p.arr, p.off + got, p.len - got⟩) h hb hpl hpa
      have ht := bufRead_total (p := ⟨p.arr, p.off + got, p.len - got⟩) h hpa
        (by unfold Within at hw ⊢; simp only; omega)
      rcases hres : bufRead ⟨p.arr, p.off + got, p.len - got⟩ m s with ⟨m1, res⟩
      rw [hres] at hr ht
      simp only at ht
      cases res with
      | error e => exact ht
      | ok r =>
        obtain ⟨n, s1⟩ := r
        simp only at hr ⊢
        obtain ⟨_, h2, h3, x, hx, hput, _⟩ := hr
        have hxle := hput.le
        have hat := hput.at_
        simp only at hxle hat
        unfold Within at hw
        have hw1 : Within m1 p := by
          unfold Within
          rw [hat, patch_length (by omega)]; exact hw
        rw [ih (got + n) h2 (by rw [hput.grows]; exact hpl) (by rw [h3]; exact hpa) hw1 (by omega), ht]

theorem bufReadByte_total (fuel : Nat) {m : Mem} {s : MBuf} (h : Ok m s) : total (bufReadByte fuel m s).1 = total m := by
  induction fuel generalizing m s with
  | zero => rfl
  | succ fuel ih =>
    simp only [bufReadByte]
    split
    · rfl
    · split
      · rfl
      · rw [ih (fill_spec (b := 0) h).2.1, fill_total h]

/-- A body that is not there in full may take 2^32 - 1 bytes. -/
theorem readBody_total {m : Mem} {s : MBuf} {h : List (Ref × Ref)} (hok : Ok m s) :
    match (readBody h m s).2 with
    | .ok (_, s') => s'.ahead (readBody h m s).1 ≤ s.ahead m ∧
        total (readBody h m s).1 + 3 * s'.ahead (readBody h m s).1 ≤ total m + 3 * s.ahead m
    | .error _ => total (readBody h m s).1 < total m + 3 * s.ahead m + 2 ^ 32 := by
  have hsp := readBody_spec (h := h) hok
  unfold readBody at hsp ⊢
  cases hc : (loadHeader m h).contentLength with
  | none =>
    simp only
    have ht := bufReadBytes_total 0 hok
    rcases hres : bufReadBytes 0 m s with ⟨m1, res⟩
    rw [hres] at ht
    cases res with
    | error e => simp only at ht ⊢; omega
    | ok r => simp only at ht ⊢; omega
  | some c =>
    cases c with
    | none => simp only; omega
    | some n =>
      have hn : n < 2 ^ 32 := by
        unfold Header.contentLength at hc
        split at hc
        · cases hc
        · simp only [Option.some.injEq] at hc
          unfold parseUint at hc
          split at hc
          · next hp => simp only [Option.some.injEq] at hc; rw [← hc]; exact hp.2.2
          · cases hc
      rw [hc] at hsp
      simp only at hsp ⊢
      have hok1 : Ok (alloc m (List.replicate n 0)) s := hok.kept (kept_alloc (Nat.le_refl _) hok.there)
      have hv : s.value (alloc m (List.replicate n 0)) = s.value m := value_alloc hok _
      have hne : m.length ≠ s.arr := Nat.ne_of_gt hok.there
      have hb := bodyLoop_spec (b := m.length) (s.fuel m + 1) 0 [] (p := fresh m (List.replicate n 0)) hok1
        (Nat.le_refl _) (by simp [fresh, alloc]) hne (by simp [Within, fresh, alloc]) rfl (Nat.zero_le _)
        (by simp [load])
      have hbt := bodyLoop_total (b := m.length) (s.fuel m + 1) 0 (p := fresh m (List.replicate n 0)) hok1
        (Nat.le_refl _) (by simp [fresh, alloc]) hne (by simp [Within, fresh, alloc]) (Nat.zero_le _)
      rw [total_alloc, List.length_replicate] at hbt
      rw [hv] at hb
      rcases hres : bodyLoop (s.fuel m + 1) 0 (fresh m (List.replicate n 0)) (alloc m (List.replicate n 0)) s with
        ⟨m1, res⟩
      rw [hres] at hb hbt hsp
      simp only at hbt
      cases res with
      | error e => simp only; omega
      | ok s1 =>
        simp only at hb hsp ⊢
        obtain ⟨_, h2, h3, h4, h5, h6⟩ := hb
        have htt := bufReadByte_total (s1.fuel m1) h2
        have hts := bufReadByte_spec (s1.fuel m1) h2
        rcases hres : bufReadByte (s1.fuel m1) m1 s1 with ⟨m2, res⟩
        rw [hres] at htt hts hsp
        simp only at htt
        cases res with
        | error e => simp only; omega
        | ok r =>
          obtain ⟨t, s2⟩ := r
          simp only at hts hsp ⊢
          by_cases ht0 : t ≠ 0
          · simp only [if_pos ht0]; omega
          · simp only [if_neg ht0]
            have e1 := congrArg List.length (cBodyLoop_tot _ _ _ _ h6)
            have e2 := congrArg List.length (bufReadByte_tot _ _ hts.2.2.2)
            have hll := load_length h5
            simp only [List.length_append, List.nil_append, List.length_cons, hll] at e1 e2
            have hlen : (fresh m (List.replicate n 0)).len = n := by simp [fresh]
            rw [hlen] at e1
            simp only [MBuf.ahead]
            omega

/-- What one `Read` takes. -/
theorem readFrame_total (keeps : Bool) {m : Mem} {s : MBuf} (hok : Ok m s) :
    match (readFrame keeps m s).2 with
    | .frame _ s' => s'.ahead (readFrame keeps m s).1 ≤ s.ahead m ∧
        total (readFrame keeps m s).1 + 3 * s'.ahead (readFrame keeps m s).1 ≤ total m + 3 * s.ahead m
    | .heartbeat s' => s'.ahead (readFrame keeps m s).1 ≤ s.ahead m ∧
        total (readFrame keeps m s).1 + 3 * s'.ahead (readFrame keeps m s).1 ≤ total m + 3 * s.ahead m
    | .err _ => total (readFrame keeps m s).1 < total m + 3 * s.ahead m + 2 ^ 32 := by
  unfold readFrame
  have hr := readLine_spec hok (Nat.le_refl _)
  have ht := readLine_total hok
  rcases hres : readLine m s with ⟨m1, res⟩
  rw [hres] at hr ht
  cases res with
  | error e => simp only at ht ⊢; omega
  | ok r =>
    obtain ⟨l, s1⟩ := r
    simp only at hr ht ⊢
    obtain ⟨h1, h2, h3, h4, h5, h6⟩ := hr
    by_cases hz : l.len = 0
    · simp only [if_pos hz]; omega
    · simp only [if_neg hz]
      have hal : s.arr < m1.length := by rw [← h3]; exact h2.there
      have hta := total_alloc m1 (load m1 l)
      have hll := load_le m1 l
      by_cases hcmd : load m1 l ∉ validCommands
      · simp only [if_pos hcmd]; omega
      · simp only [if_neg hcmd]
        have hka : Kept m.length s.arr m1 (alloc m1 (load m1 l)) := kept_alloc h1.grows hal
        have hok2 : Ok (alloc m1 (load m1 l)) s1 := h2.kept (b := m.length) (by rw [h3]; exact hka)
        have hlen2 : m.length ≤ (alloc m1 (load m1 l)).length := Nat.le_trans h1.grows hka.grows
        have hv : s1.ahead (alloc m1 (load m1 l)) = s1.ahead m1 := by
          simp only [MBuf.ahead]; rw [value_alloc h2]
        have hh := readHeaders_spec (base := m.length) keeps (s1.fuel (alloc m1 (load m1 l))) (h := []) hok2
          (Nat.le_refl _) hlen2 (by simp)
        have hht := readHeaders_total (base := m.length) keeps (s1.fuel (alloc m1 (load m1 l))) (h := []) hok2
          hlen2 (by simp)
        rw [hv] at hht
        rcases hres : readHeaders keeps (s1.fuel (alloc m1 (load m1 l))) (alloc m1 (load m1 l)) s1 [] with ⟨m3, res⟩
        rw [hres] at hh hht
        cases res with
        | error e => simp only at hht ⊢; omega
        | ok r =>
          obtain ⟨h, s3⟩ := r
          simp only at hh hht ⊢
          have hbt := readBody_total (h := h) hh.2.1
          rcases hres : readBody h m3 s3 with ⟨m4, res⟩
          rw [hres] at hbt
          cases res with
          | error e => simp only at hbt ⊢; omega
          | ok r => simp only at hbt ⊢; omega

theorem ahead_unread {m : Mem} {s : MBuf} (h : Ok m s) : s.ahead m = unread s := by
  have := h.unread_length
  simp only [MBuf.ahead, BR.tot, unread, List.length_append, List.length_flatten]
  rw [← this]
  rfl

theorem step_err {keeps : Bool} {w : World} {i : Nat} {r : Rd} {s : MBuf} {m : Mem} {e : CErr}
    (hr : w.readers[i]? = some r) (hs : r.buf = some s) (h : readFrame keeps w.mem s = (m, .err e)) :
    step keeps w (.read i) = some { mem := m, readers := w.readers.set i { r with buf := none } } := by
  simp only [step, hr, hs, h]

/-- A body of which nothing arrives is allocated all the same. -/
theorem readBody_eof {m : Mem} {s : MBuf} {h : List (Ref × Ref)} {n : Nat}
    (hc : (loadHeader m h).contentLength = some (some n)) (hr : s.r = s.w) (he : s.err = none) (hch : s.chunks = [])
    (hsz : s.size m ≤ n) (hn : 0 < n) (ht : s.arr < m.length) :
    readBody h m s = (alloc m (List.replicate n 0), .error (.read .eof)) := by
  have hsize : s.size (alloc m (List.replicate n 0)) = s.size m := by
    unfold MBuf.size; rw [alloc_getD ht]
  have hb : bufRead ⟨m.length, 0 + 0, n - 0⟩ (alloc m (List.replicate n 0)) s =
      (alloc m (List.replicate n 0), .error .eof) := by
    unfold bufRead
    rw [if_pos hr, he]
    simp only [Nat.sub_zero]
    rw [if_pos (by rw [hsize]; exact hsz), hch]
    rfl
  have hl : bodyLoop (s.fuel m + 1) 0 (fresh m (List.replicate n 0)) (alloc m (List.replicate n 0)) s =
      (alloc m (List.replicate n 0), .error .eof) := by
    have hlen : (fresh m (List.replicate n (0 : UInt8))) = ⟨m.length, 0, n⟩ := by simp [fresh]
    unfold bodyLoop
    rw [hlen]
    simp only
    rw [if_neg (by omega), hb]
  unfold readBody
  rw [hc]
  simp only
  rw [hl]
  rfl

/-- Command and headers (`frame/reader.go:48-104`), up to the body. -/
def head (keeps : Bool) (m : Mem) (s : MBuf) : Option (Mem × List (Ref × Ref) × MBuf) :=
  match readLine m s with
  | (_, .error _) => none
  | (m, .ok (line, s)) =>
    if line.len = 0 then none
    else
      let cmd := load m line
      let m := alloc m cmd
      if cmd ∉ validCommands then none
      else match readHeaders keeps (s.fuel m) m s [] with
        | (_, .error _) => none
        | (m, .ok (h, s)) => some (m, h, s)

theorem readFrame_head {keeps : Bool} {m : Mem} {s : MBuf} {m1 : Mem} {h : List (Ref × Ref)} {s1 : MBuf}
    (hh : head keeps m s = some (m1, h, s1)) {m2 : Mem} {e : CErr} (hb : readBody h m1 s1 = (m2, .error e)) :
    readFrame keeps m s = (m2, .err e) := by
  unfold head at hh
  unfold readFrame
  rcases hl : readLine m s with ⟨m', res⟩
  rw [hl] at hh
  cases res with
  | error e => cases hh
  | ok r =>
    obtain ⟨l, s'⟩ := r
    simp only at hh ⊢
    split at hh
    · cases hh
    · next hz =>
      rw [if_neg hz]
      split at hh
      · cases hh
      · next hc =>
        rw [if_neg hc]
        rcases hq : readHeaders keeps (s'.fuel (alloc m' (load m' l))) (alloc m' (load m' l)) s' [] with ⟨m3, res⟩
        rw [hq] at hh
        cases res with
        | error e => cases hh
        | ok r =>
          obtain ⟨h', s3⟩ := r
          simp only [Option.some.injEq, Prod.mk.injEq] at hh
          obtain ⟨rfl, rfl, rfl⟩ := hh
          simp only
          rw [hb]

end Stomp.Mem
