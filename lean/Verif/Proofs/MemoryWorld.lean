import Verif.Proofs.Memory
import Verif.Proofs.Bufio
import Verif.Spec.Memory
/-! # A program with readers: who owns which array -/
namespace Stomp.Mem

/-- The arrays of the command and the header strings. -/
def MFrame.strings (f : MFrame) : List Nat := f.command.arr :: f.header.flatMap (fun kv => [kv.1.arr, kv.2.arr])

theorem MFrame.value_same {f : MFrame} {m m' : Mem} (hs : ∀ a ∈ f.strings, m'.getD a [] = m.getD a []) :
    (f.value m').command = (f.value m).command ∧ (f.value m').header = (f.value m).header := by
  constructor
  · show load m' f.command = load m f.command
    unfold load; rw [hs _ (by simp [MFrame.strings])]
  · show loadHeader m' f.header = loadHeader m f.header
    unfold loadHeader
    apply List.map_congr_left
    intro kv hkv
    have h1 : kv.1.arr ∈ f.strings := by
      unfold MFrame.strings
      exact List.mem_cons_of_mem _ (List.mem_flatMap.mpr ⟨kv, hkv, by simp⟩)
    have h2 : kv.2.arr ∈ f.strings := by
      unfold MFrame.strings
      exact List.mem_cons_of_mem _ (List.mem_flatMap.mpr ⟨kv, hkv, by simp⟩)
    unfold load
    rw [hs _ h1, hs _ h2]

/-- `a` is the buffer of a reader in use. -/
def World.live (w : World) (a : Nat) : Prop := ∃ (i : Nat) (r : Rd) (s : MBuf), w.readers[i]? = some r ∧ r.buf = some s ∧ s.arr = a

structure Placed (w : World) (f : MFrame) : Prop where
  strings : ∀ a ∈ f.strings, a < w.mem.length ∧ ¬ w.live a
  body : f.body.arr < w.mem.length
  dead : ¬ w.live f.body.arr
  within : Within w.mem f.body

structure WInv (w : World) : Prop where
  ok : ∀ (i : Nat) (r : Rd) (s : MBuf), w.readers[i]? = some r → r.buf = some s → Ok w.mem s
  bufs : ∀ (i i' : Nat) (r r' : Rd) (s s' : MBuf), w.readers[i]? = some r → r.buf = some s → w.readers[i']? = some r' → r'.buf = some s' → i ≠ i' →
    s.arr ≠ s'.arr
  placed : ∀ i j f, w.frame i j = some f → Placed w f
  apart : ∀ i j i' j' f f', w.frame i j = some f → w.frame i' j' = some f' →
    f'.body.arr ∉ f.strings ∧ ((i ≠ i' ∨ j ≠ j') → f.body.arr ≠ f'.body.arr)

theorem winv_init : WInv World.init :=
  ⟨by simp [World.init], by simp [World.init], by simp [World.init, World.frame], by simp [World.init, World.frame]⟩

theorem frame_some {w : World} {i j : Nat} {f : MFrame} :
    w.frame i j = some f ↔ ∃ r, w.readers[i]? = some r ∧ r.got[j]? = some (some f) := by
  unfold World.frame
  cases w.readers[i]? with
  | none => simp
  | some r =>
    cases hg : r.got[j]? with
    | none => simp [hg]
    | some x => cases x <;> simp [hg]

/-- A step that leaves the readers alone and changes memory within bounds of what the program may write. -/
theorem winv_mem {w : World} {m' : Mem} (h : WInv w) (hg : w.mem.length ≤ m'.length)
    (hl : ∀ a, a < w.mem.length → (m'.getD a []).length = (w.mem.getD a []).length) :
    WInv { w with mem := m' } := by
  refine ⟨?_, h.bufs, ?_, h.apart⟩
  · intro i r s hr hs
    have ho := h.ok i r s hr hs
    exact ⟨ho.rw', by simp only [MBuf.size]; rw [hl _ ho.there]; exact ho.room, Nat.lt_of_lt_of_le ho.there hg⟩
  · intro i j f hf
    have hp := h.placed i j f hf
    exact ⟨fun a ha => ⟨Nat.lt_of_lt_of_le (hp.strings a ha).1 hg, (hp.strings a ha).2⟩,
      Nat.lt_of_lt_of_le hp.body hg, hp.dead, by unfold Within; rw [hl _ hp.body]; exact hp.within⟩

/-- Reader `i` has read: `m'` is the memory, `x` what is added to its results (if anything), `b` its state. -/
theorem winv_read {w : World} {i : Nat} {r : Rd} {s : MBuf} (h : WInv w) (hr : w.readers[i]? = some r)
    (hs : r.buf = some s) {m' : Mem} (hk : Kept w.mem.length s.arr w.mem m') {b : Option MBuf}
    (hb : ∀ s', b = some s' → Ok m' s' ∧ s'.arr = s.arr) {xs : List (Option MFrame)}
    (hx : ∀ f, some f ∈ xs → xs = [some f] ∧ FrameOwn w.mem.length s.arr m' f) :
    WInv { mem := m', readers := w.readers.set i { r with buf := b, got := r.got ++ xs } } := by
  have hlt : i < w.readers.length := by
    rcases Nat.lt_or_ge i w.readers.length with hlt | hge
    · exact hlt
    · rw [List.getElem?_eq_none hge] at hr; cases hr
  have hso := h.ok i r s hr hs
  -- the readers of the new world
  have hrd : ∀ (k : Nat) (r' : Rd), (w.readers.set i { r with buf := b, got := r.got ++ xs })[k]? = some r' →
      (k = i ∧ r' = { r with buf := b, got := r.got ++ xs }) ∨ (k ≠ i ∧ w.readers[k]? = some r') := by
    intro k r' hk'
    by_cases hki : k = i
    · subst hki
      rw [List.getElem?_set_self hlt] at hk'
      simp only [Option.some.injEq] at hk'
      exact Or.inl ⟨rfl, hk'.symm⟩
    · rw [List.getElem?_set_ne (Ne.symm hki)] at hk'
      exact Or.inr ⟨hki, hk'⟩
  -- live buffers were live
  have hlive : ∀ a, World.live { mem := m', readers := w.readers.set i { r with buf := b, got := r.got ++ xs } } a →
      w.live a := by
    rintro a ⟨k, r', s', h1, h2, h3⟩
    rcases hrd k r' h1 with ⟨_, e⟩ | ⟨_, e⟩
    · subst e
      exact ⟨i, r, s, hr, hs, by rw [← (hb s' h2).2]; exact h3⟩
    · exact ⟨k, r', s', e, h2, h3⟩
  have hlt' : ∀ a, w.live a → a < w.mem.length := by
    rintro a ⟨k, r', s', h1, h2, h3⟩
    rw [← h3]; exact (h.ok k r' s' h1 h2).there
  -- the frames of the new world
  have hfr : ∀ (k j : Nat) (f : MFrame),
      World.frame { mem := m', readers := w.readers.set i { r with buf := b, got := r.got ++ xs } } k j = some f →
      w.frame k j = some f ∨ (k = i ∧ j = r.got.length ∧ FrameOwn w.mem.length s.arr m' f) := by
    intro k j f hf
    obtain ⟨r', h1, h2⟩ := frame_some.mp hf
    rcases hrd k r' h1 with ⟨e1, e⟩ | ⟨_, e⟩
    · subst e
      simp only at h2
      rcases Nat.lt_or_ge j r.got.length with hj | hj
      · rw [List.getElem?_append_left hj] at h2
        exact Or.inl (frame_some.mpr ⟨r, by rw [e1]; exact hr, h2⟩)
      · rw [List.getElem?_append_right hj] at h2
        obtain ⟨e2, e3⟩ := hx f (List.mem_of_getElem? h2)
        refine Or.inr ⟨e1, ?_, e3⟩
        rw [e2] at h2
        rcases Nat.eq_or_lt_of_le hj with hj | hj
        · exact hj.symm
        · rw [List.getElem?_eq_none (by simp; omega)] at h2; cases h2
    · exact Or.inl (frame_some.mpr ⟨r', e, h2⟩)
  have hstr : ∀ f, FrameOwn w.mem.length s.arr m' f → ∀ a ∈ f.strings, w.mem.length ≤ a ∧ a < m'.length := by
    intro f ho a ha
    simp only [MFrame.strings, List.mem_cons, List.mem_flatMap] at ha
    rcases ha with ha | ⟨kv, hkv, ha⟩
    · rw [ha]; exact ⟨ho.command.new, ho.command.there⟩
    · simp only [List.not_mem_nil, or_false] at ha
      rcases ha with ha | ha
      · rw [ha]; exact ⟨(ho.header kv hkv).1.new, (ho.header kv hkv).1.there⟩
      · rw [ha]; exact ⟨(ho.header kv hkv).2.new, (ho.header kv hkv).2.there⟩
  refine ⟨?_, ?_, ?_, ?_⟩
  · intro k r' s' h1 h2
    rcases hrd k r' h1 with ⟨_, e⟩ | ⟨hki, e⟩
    · subst e
      exact (hb s' h2).1
    · have ho := h.ok k r' s' e h2
      have hne := h.bufs k i r' r s' s e h2 hr hs hki
      have hsz : (m'.getD s'.arr []).length = (w.mem.getD s'.arr []).length := by rw [hk.same _ ho.there hne]
      exact ⟨ho.rw', by simp only [MBuf.size]; rw [hsz]; exact ho.room, Nat.lt_of_lt_of_le ho.there hk.grows⟩
  · intro k k' r1 r2 s1 s2 h1 h2 h3 h4 hne
    rcases hrd k r1 h1 with ⟨e0, e⟩ | ⟨hki, e⟩
    · rcases hrd k' r2 h3 with ⟨e0', e'⟩ | ⟨hki', e'⟩
      · omega
      · subst e
        rw [(hb s1 h2).2]
        exact h.bufs i k' r r2 s s2 hr hs e' h4 (Ne.symm hki')
    · rcases hrd k' r2 h3 with ⟨e0', e'⟩ | ⟨hki', e'⟩
      · subst e'
        rw [(hb s2 h4).2]
        exact h.bufs k i r1 r s1 s e h2 hr hs hki
      · exact h.bufs k k' r1 r2 s1 s2 e h2 e' h4 hne
  · intro k j f hf
    rcases hfr k j f hf with hf | ⟨_, _, ho⟩
    · have hp := h.placed k j f hf
      have hne : f.body.arr ≠ s.arr := fun he => hp.dead ⟨i, r, s, hr, hs, he.symm⟩
      refine ⟨fun a ha => ⟨Nat.lt_of_lt_of_le (hp.strings a ha).1 hk.grows, fun hl => (hp.strings a ha).2 (hlive a hl)⟩,
        Nat.lt_of_lt_of_le hp.body hk.grows, fun hl => hp.dead (hlive _ hl), ?_⟩
      unfold Within
      rw [hk.same _ hp.body hne]
      exact hp.within
    · refine ⟨fun a ha => ⟨(hstr f ho a ha).2, fun hl => ?_⟩, ho.body.there, fun hl => ?_, ho.within⟩
      · have := hlt' a (hlive a hl)
        have := (hstr f ho a ha).1
        omega
      · have := hlt' _ (hlive _ hl)
        have := ho.body.new
        omega
  · intro k j k' j' f f' hf hf'
    rcases hfr k j f hf with hf | ⟨e1, e2, ho⟩
    · rcases hfr k' j' f' hf' with hf' | ⟨e1', e2', ho'⟩
      · exact h.apart k j k' j' f f' hf hf'
      · have hp := h.placed k j f hf
        have hn := ho'.body.new
        refine ⟨fun hm => ?_, fun _ => ?_⟩
        · have := (hp.strings _ hm).1; omega
        · have := hp.body; omega
    · rcases hfr k' j' f' hf' with hf' | ⟨e1', e2', ho'⟩
      · have hp := h.placed k' j' f' hf'
        have hn := ho.body.new
        refine ⟨fun hm => ?_, fun _ => ?_⟩
        · have := (hstr f ho _ hm).1; have := hp.body; omega
        · have := hp.body; omega
      · -- both are the frame just read
        have hff : f = f' := by
          obtain ⟨r1, a1, a2⟩ := frame_some.mp hf
          obtain ⟨r2, b1, b2⟩ := frame_some.mp hf'
          rw [e1] at a1; rw [e1', a1] at b1
          rw [e2] at a2; rw [e2'] at b2
          cases b1
          rw [a2] at b2
          simpa using b2
        subst hff
        refine ⟨fun hm => ?_, fun hne => by omega⟩
        simp only [MFrame.strings, List.mem_cons, List.mem_flatMap] at hm
        rcases hm with hm | ⟨kv, hkv, hm⟩
        · exact ho.command_body hm.symm
        · simp only [List.not_mem_nil, or_false] at hm
          rcases hm with hm | hm
          · exact (ho.header_body kv hkv).1 hm.symm
          · exact (ho.header_body kv hkv).2 hm.symm

/-! ## One operation -/

open Stomp.Mem.Spec

theorem written_cons (i j : Nat) (op : Op) (ops : List Op) (b : Bytes) :
    written i j (op :: ops) b = written i j ops (written i j [op] b) := by
  cases op <;> rfl

theorem written_append (i j : Nat) (ops ops' : List Op) (b : Bytes) :
    written i j (ops ++ ops') b = written i j ops' (written i j ops b) := by
  induction ops generalizing b with
  | nil => rfl
  | cons op ops ih => rw [List.cons_append, written_cons, ih, ← written_cons]

/-- The frame `f` reads in `m'` as it did in `m`, but for the body. -/
theorem value_eq {f : MFrame} {m m' : Mem} (hs : ∀ a ∈ f.strings, m'.getD a [] = m.getD a []) {b : Bytes}
    (hb : load m' f.body = b) : f.value m' = { f.value m with body := b } := by
  obtain ⟨h1, h2⟩ := MFrame.value_same hs
  unfold MFrame.value at *
  simp only at h1 h2 ⊢
  rw [h1, h2, hb]

theorem patch_one (a : Bytes) (p : Nat) (x : UInt8) (h : p < a.length) : patch a p [x] = a.set p x := by
  unfold patch
  rw [List.set_eq_take_append_cons_drop, if_pos h]
  simp

theorem load_set {a : Bytes} {off len p : Nat} {x : UInt8} :
    ((a.set (off + p) x).drop off).take len = ((a.drop off).take len).set p x := by
  rw [List.drop_set, if_neg (by omega), show off + p - off = p by omega, List.take_set]

theorem load_behind {a d : Bytes} {off len : Nat} (h : off + len + d.length ≤ a.length) :
    ((patch a (off + len) d).drop off).take len = (a.drop off).take len := by
  have : (patch a (off + len) d).take (off + len) = a.take (off + len) := patch_take (by omega)
  rw [show ((patch a (off + len) d).drop off).take len = ((patch a (off + len) d).take (off + len)).drop off from by
    rw [List.drop_take, show off + len - off = len by omega], this, List.drop_take,
    show off + len - off = len by omega]

theorem step_read {keeps : Bool} {w w' : World} {i : Nat} (h : WInv w) (hst : step keeps w (.read i) = some w') :
    ∃ r s xs b, w.readers[i]? = some r ∧ r.buf = some s ∧
      w' = { mem := (readFrame keeps w.mem s).1, readers := w.readers.set i { r with buf := b, got := r.got ++ xs } } ∧
      Kept w.mem.length s.arr w.mem (readFrame keeps w.mem s).1 ∧
      (∀ s', b = some s' → Ok w'.mem s' ∧ s'.arr = s.arr) ∧
      (∀ f, some f ∈ xs → xs = [some f] ∧ FrameOwn w.mem.length s.arr w'.mem f) ∧
      ((∃ f s', xs = [some f] ∧ b = some s' ∧ cReadFrame (s.value w.mem) = .frame (f.value w'.mem) (s'.value w'.mem)) ∨
       (∃ s', xs = [none] ∧ b = some s' ∧ cReadFrame (s.value w.mem) = .heartbeat (s'.value w'.mem)) ∨
       (xs = [] ∧ b = none ∧ ∃ e, cReadFrame (s.value w.mem) = .err e)) := by
  simp only [step] at hst
  cases hr : w.readers[i]? with
  | none => rw [hr] at hst; cases hst
  | some r =>
    rw [hr] at hst; simp only at hst
    cases hs : r.buf with
    | none => rw [hs] at hst; cases hst
    | some s =>
      rw [hs] at hst; simp only at hst
      have hsp := readFrame_spec keeps (h.ok i r s hr hs)
      rcases hres : readFrame keeps w.mem s with ⟨m, res⟩
      rw [hres] at hsp hst
      cases res with
      | frame f s' =>
        simp only [Option.some.injEq] at hst hsp
        subst hst
        obtain ⟨h1, h2, h3, h4, h5⟩ := hsp
        refine ⟨r, s, [some f], some s', rfl, hs, by rw [hres], by rw [hres]; exact h1, ?_, ?_, Or.inl ⟨f, s', rfl, rfl, h5⟩⟩
        · intro s1 e; cases e; exact ⟨h2, h3⟩
        · intro f1 e; simp only [List.mem_singleton, Option.some.injEq] at e; subst e; exact ⟨rfl, h4⟩
      | heartbeat s' =>
        simp only [Option.some.injEq] at hst hsp
        subst hst
        obtain ⟨h1, h2, h3, h5⟩ := hsp
        refine ⟨r, s, [none], some s', rfl, hs, by rw [hres], by rw [hres]; exact h1, ?_, ?_,
          Or.inr (Or.inl ⟨s', rfl, rfl, h5⟩)⟩
        · intro s1 e; cases e; exact ⟨h2, h3⟩
        · intro f1 e; simp at e
      | err e =>
        simp only [Option.some.injEq] at hst hsp
        subst hst
        refine ⟨r, s, [], none, rfl, hs, by rw [hres]; simp, by rw [hres]; exact hsp.1, ?_, ?_,
          Or.inr (Or.inr ⟨rfl, rfl, e, hsp.2⟩)⟩
        · intro s1 e; cases e
        · intro f1 e; simp at e

/-- One operation of the program: the invariant, and what becomes of a frame that has been read. -/
theorem step_spec {keeps : Bool} {w w' : World} {op : Op} (h : WInv w) (hst : step keeps w op = some w') :
    WInv w' ∧ ∀ i j f, w.frame i j = some f → w'.frame i j = some f ∧
      f.value w'.mem = { f.value w.mem with body := written i j [op] (f.value w.mem).body } := by
  cases op with
  | make d =>
    simp only [step, Option.some.injEq] at hst
    subst hst
    refine ⟨winv_mem h (by simp [alloc]) (fun a ha => by rw [alloc_getD ha]), fun i j f hf => ⟨hf, ?_⟩⟩
    have hp := h.placed i j f hf
    exact value_eq (fun a ha => alloc_getD (hp.strings a ha).1) (load_alloc hp.body)
  | append i' j' d =>
    simp only [step] at hst
    cases hf' : w.frame i' j' with
    | none => rw [hf'] at hst; cases hst
    | some f' =>
      rw [hf'] at hst; simp only at hst
      have hp' := h.placed i' j' f' hf'
      by_cases hfit : f'.body.off + f'.body.len + d.length ≤ (w.mem.getD f'.body.arr []).length
      · rw [if_pos hfit] at hst
        simp only [Option.some.injEq] at hst
        subst hst
        refine ⟨winv_mem h (by rw [store_length]; exact Nat.le_refl _) ?_, fun i j f hf => ⟨hf, ?_⟩⟩
        · intro a ha
          unfold store
          by_cases hea : a = f'.body.arr
          · rw [hea, getD_set_self hp'.body, patch_length hfit]
          · rw [getD_set_ne hea]
        · have hp := h.placed i j f hf
          have hap := h.apart i j i' j' f f' hf hf'
          refine value_eq (fun a ha => getD_set_ne (a := f'.body.arr) (fun e => hap.1 (e ▸ ha))) ?_
          show load _ f.body = load w.mem f.body
          unfold load
          by_cases hea : f.body.arr = f'.body.arr
          · have hij : i = i' ∧ j = j' := by
              apply Classical.byContradiction
              intro hne
              exact hap.2 (by omega) hea
            obtain ⟨rfl, rfl⟩ := hij
            rw [hf] at hf'; cases hf'
            rw [getD_set_self hp.body]
            exact load_behind hfit
          · rw [getD_set_ne hea]
      · rw [if_neg hfit] at hst
        simp only [Option.some.injEq] at hst
        subst hst
        refine ⟨winv_mem h (by simp [alloc]) (fun a ha => by rw [alloc_getD ha]), fun i j f hf => ⟨hf, ?_⟩⟩
        have hp := h.placed i j f hf
        exact value_eq (fun a ha => alloc_getD (hp.strings a ha).1) (load_alloc hp.body)
  | poke i' j' p x =>
    simp only [step] at hst
    cases hf' : w.frame i' j' with
    | none => rw [hf'] at hst; cases hst
    | some f' =>
      rw [hf'] at hst; simp only at hst
      have hp' := h.placed i' j' f' hf'
      have hw' := hp'.within
      unfold Within at hw'
      by_cases hlt : p < f'.body.len
      · rw [if_pos hlt] at hst
        simp only [Option.some.injEq] at hst
        subst hst
        refine ⟨winv_mem h (by rw [store_length]; exact Nat.le_refl _) ?_, fun i j f hf => ⟨hf, ?_⟩⟩
        · intro a ha
          unfold store
          by_cases hea : a = f'.body.arr
          · rw [hea, getD_set_self hp'.body, patch_length (by simp; simp at hw'; omega)]
          · rw [getD_set_ne hea]
        · have hp := h.placed i j f hf
          have hap := h.apart i j i' j' f f' hf hf'
          refine value_eq (fun a ha => getD_set_ne (a := f'.body.arr) (fun e => hap.1 (e ▸ ha))) ?_
          simp only [written]
          show load _ f.body = if i' = i ∧ j' = j then (load w.mem f.body).set p x else load w.mem f.body
          by_cases hij : i' = i ∧ j' = j
          · rw [if_pos hij]
            obtain ⟨rfl, rfl⟩ := hij
            rw [hf] at hf'; cases hf'
            unfold load
            rw [getD_set_self hp.body, patch_one _ _ _ (by omega), load_set]
          · rw [if_neg hij]
            unfold load
            rw [getD_set_ne (hap.2 (by omega))]
      · rw [if_neg hlt] at hst; cases hst
  | newReader n source =>
    simp only [step, Option.some.injEq] at hst
    subst hst
    have hfr : ∀ i j, World.frame { mem := alloc w.mem (List.replicate (max n 16) 0), readers := w.readers ++ [({
        size := n, source := source, buf := some ⟨w.mem.length, 0, 0, none, source⟩, got := [] } : Rd)] } i j =
        w.frame i j := by
      intro i j
      unfold World.frame
      rcases Nat.lt_or_ge i w.readers.length with hi | hi
      · simp only [List.getElem?_append_left hi]
      · rw [List.getElem?_eq_none hi, List.getElem?_append_right hi]
        cases hk : i - w.readers.length <;> simp
    have hrd : ∀ (k : Nat) (r' : Rd), (w.readers ++ [({
        size := n, source := source, buf := some ⟨w.mem.length, 0, 0, none, source⟩, got := [] } : Rd)])[k]? = some r' →
        w.readers[k]? = some r' ∨ (k = w.readers.length ∧ r' = {
          size := n, source := source, buf := some ⟨w.mem.length, 0, 0, none, source⟩, got := [] }) := by
      intro k r' hk
      rcases Nat.lt_or_ge k w.readers.length with hi | hi
      · rw [List.getElem?_append_left hi] at hk; exact Or.inl hk
      · rw [List.getElem?_append_right hi] at hk
        cases hkk : k - w.readers.length with
        | zero => rw [hkk] at hk; simp at hk; exact Or.inr ⟨by omega, hk.symm⟩
        | succ q => rw [hkk] at hk; simp at hk
    have hlive : ∀ a, World.live { mem := alloc w.mem (List.replicate (max n 16) 0), readers := w.readers ++ [({
        size := n, source := source, buf := some ⟨w.mem.length, 0, 0, none, source⟩, got := [] } : Rd)] } a →
        w.live a ∨ a = w.mem.length := by
      rintro a ⟨k, r', s', h1, h2, h3⟩
      rcases hrd k r' h1 with e | ⟨_, e⟩
      · exact Or.inl ⟨k, r', s', e, h2, h3⟩
      · subst e; simp only [Option.some.injEq] at h2; subst h2; exact Or.inr h3.symm
    refine ⟨⟨?_, ?_, ?_, ?_⟩, fun i j f hf => ⟨by rw [hfr]; exact hf, ?_⟩⟩
    · intro k r' s' h1 h2
      rcases hrd k r' h1 with e | ⟨_, e⟩
      · exact (h.ok k r' s' e h2).kept (kept_alloc (Nat.le_refl _) (h.ok k r' s' e h2).there)
      · subst e
        simp only [Option.some.injEq] at h2
        subst h2
        exact ⟨Nat.le_refl _, Nat.zero_le _, by simp [alloc]⟩
    · intro k k' r1 r2 s1 s2 h1 h2 h3 h4 hne
      rcases hrd k r1 h1 with e | ⟨q, e⟩
      · rcases hrd k' r2 h3 with e' | ⟨q', e'⟩
        · exact h.bufs k k' r1 r2 s1 s2 e h2 e' h4 hne
        · subst e'
          simp only [Option.some.injEq] at h4
          subst h4
          exact Nat.ne_of_lt (h.ok k r1 s1 e h2).there
      · rcases hrd k' r2 h3 with e' | ⟨q', e'⟩
        · subst e
          simp only [Option.some.injEq] at h2
          subst h2
          exact Nat.ne_of_gt (h.ok k' r2 s2 e' h4).there
        · omega
    · intro k j f hf
      rw [hfr] at hf
      have hp := h.placed k j f hf
      refine ⟨fun a ha => ⟨?_, fun hl => ?_⟩, ?_, fun hl => ?_, ?_⟩
      · have := (hp.strings a ha).1
        simp [alloc]; omega
      · rcases hlive a hl with hl | hl
        · exact (hp.strings a ha).2 hl
        · have := (hp.strings a ha).1; omega
      · have := hp.body
        simp [alloc]; omega
      · rcases hlive _ hl with hl | hl
        · exact hp.dead hl
        · have := hp.body; omega
      · unfold Within
        rw [alloc_getD hp.body]; exact hp.within
    · intro k j k' j' f f' hf hf'
      rw [hfr] at hf hf'
      exact h.apart k j k' j' f f' hf hf'
    · have hp := h.placed i j f hf
      exact value_eq (fun a ha => alloc_getD (hp.strings a ha).1) (load_alloc hp.body)
  | read i' =>
    obtain ⟨r, s, xs, b, hr, hs, hw, hk, hb, hx, _⟩ := step_read h hst
    subst hw
    refine ⟨winv_read h hr hs hk hb hx, fun i j f hf => ⟨?_, ?_⟩⟩
    · obtain ⟨r1, h1, h2⟩ := frame_some.mp hf
      have hj : j < r1.got.length := by
        rcases Nat.lt_or_ge j r1.got.length with hlt | hge
        · exact hlt
        · rw [List.getElem?_eq_none hge] at h2; cases h2
      have hi : i < w.readers.length := by
        rcases Nat.lt_or_ge i w.readers.length with hlt | hge
        · exact hlt
        · rw [List.getElem?_eq_none hge] at h1; cases h1
      apply frame_some.mpr
      by_cases hii : i = i'
      · subst hii
        rw [hr] at h1; cases h1
        refine ⟨_, List.getElem?_set_self hi, ?_⟩
        simp only
        rw [List.getElem?_append_left hj]; exact h2
      · exact ⟨r1, by simp only; rw [List.getElem?_set_ne (Ne.symm hii)]; exact h1, h2⟩
    · have hp := h.placed i j f hf
      have hne : ∀ a, ¬ w.live a → a ≠ s.arr := fun a hl he => hl ⟨i', r, s, hr, hs, he.symm⟩
      exact value_eq (fun a ha => hk.same a (hp.strings a ha).1 (hne a (hp.strings a ha).2))
        (hk.load hp.body (hne _ hp.dead))

theorem run_unchanged {keeps : Bool} {w w' : World} {ops : List Op} (h : WInv w) (hr : run keeps w ops = some w') :
    WInv w' ∧ ∀ i j f, w.frame i j = some f → w'.frame i j = some f ∧
      f.value w'.mem = { f.value w.mem with body := written i j ops (f.value w.mem).body } := by
  induction ops generalizing w with
  | nil =>
    simp only [run, Option.some.injEq] at hr
    subst hr
    exact ⟨h, fun i j f hf => ⟨hf, rfl⟩⟩
  | cons op ops ih =>
    simp only [run] at hr
    cases hst : step keeps w op with
    | none => rw [hst] at hr; cases hr
    | some w1 =>
      rw [hst] at hr
      obtain ⟨h1, h2⟩ := step_spec h hst
      obtain ⟨h3, h4⟩ := ih h1 hr
      refine ⟨h3, fun i j f hf => ?_⟩
      obtain ⟨a, b⟩ := h2 i j f hf
      obtain ⟨c, d⟩ := h4 i j f a
      refine ⟨c, ?_⟩
      rw [d, b]
      simp only
      rw [← written_cons]

/-! ## The whole of what a reader reads -/

/-- Successive calls of `Read` of a reader on values. -/
inductive Reads (a : BR) : List (Option Frame) → BR → Prop
  | nil : Reads a [] a
  | frame {vs : List (Option Frame)} {s s' : BR} {f : Frame} : Reads a vs s → cReadFrame s = .frame f s' →
      Reads a (vs ++ [some f]) s'
  | beat {vs : List (Option Frame)} {s s' : BR} : Reads a vs s → cReadFrame s = .heartbeat s' → Reads a (vs ++ [none]) s'

/-- The results with what the program has written to the bodies. -/
def edited (i : Nat) (ops : List Op) (vs : List (Option Frame)) : List (Option Frame) :=
  vs.mapIdx (fun j v => v.map (fun f => { f with body := written i j ops f.body }))

structure SInv (ops : List Op) (w : World) : Prop where
  inv : WInv w
  none : ∀ i j b, w.frame i j = none → written i j ops b = b
  reads : ∀ (i : Nat) (r : Rd), w.readers[i]? = some r → ∃ vs s, Reads (newReaderSize r.size r.source) vs s ∧
    (∀ b, r.buf = some b → b.value w.mem = s) ∧
    r.got.map (Option.map (MFrame.value w.mem)) = edited i ops vs

theorem sinv_init : SInv [] World.init := ⟨winv_init, fun _ _ _ _ => rfl, by simp [World.init]⟩

/-- A poke is possible only for a frame that has been read. -/
theorem written_step {keeps : Bool} {w w' : World} {op : Op} (hst : step keeps w op = some w') {i j : Nat}
    (hf : w.frame i j = none) (b : Bytes) : written i j [op] b = b := by
  cases op with
  | poke i' j' p x =>
    simp only [written]
    split
    · next h =>
      obtain ⟨rfl, rfl⟩ := h
      simp only [step] at hst
      rw [hf] at hst
      cases hst
    · rfl
  | _ => rfl

/-- The unread bytes of a reader are the same after an operation that is not its `Read`. -/
theorem value_other {m m' : Mem} {s : MBuf} (h : m'.getD s.arr [] = m.getD s.arr []) : s.value m' = s.value m := by
  unfold MBuf.value MBuf.size load MBuf.unread
  simp only
  rw [h]

theorem edited_snoc (i : Nat) (ops : List Op) (vs : List (Option Frame)) (v : Option Frame) :
    edited i ops (vs ++ [v]) = edited i ops vs ++
      [v.map (fun f => { f with body := written i vs.length ops f.body })] := by
  simp [edited, List.mapIdx_append]

theorem edited_length (i : Nat) (ops : List Op) (vs : List (Option Frame)) : (edited i ops vs).length = vs.length := by
  simp [edited]

/-- The results of reader `i` after one more operation. -/
theorem got_step {w w' : World} {i : Nat} {op : Op} {ops : List Op} {got : List (Option MFrame)}
    {vs : List (Option Frame)}
    (hv : ∀ (j : Nat) (f : MFrame), got[j]? = some (some f) →
      f.value w'.mem = { f.value w.mem with body := written i j [op] (f.value w.mem).body })
    (hg : got.map (Option.map (MFrame.value w.mem)) = edited i ops vs) :
    got.map (Option.map (MFrame.value w'.mem)) = edited i (ops ++ [op]) vs := by
  apply List.ext_getElem?
  intro j
  have hj := congrArg (fun l => l[j]?) hg
  simp only [edited, List.getElem?_map, List.getElem?_mapIdx] at hj ⊢
  cases hgj : got[j]? with
  | none =>
    rw [hgj] at hj
    simp only [Option.map_none] at hj ⊢
    cases hvj : vs[j]? with
    | none => rfl
    | some v => rw [hvj] at hj; simp at hj
  | some x =>
    rw [hgj] at hj
    cases hvj : vs[j]? with
    | none => rw [hvj] at hj; simp at hj
    | some v =>
      rw [hvj] at hj
      simp only [Option.map_some, Option.some.injEq] at hj ⊢
      cases x with
      | none => cases v with
        | none => rfl
        | some v => simp at hj
      | some f => cases v with
        | none => simp at hj
        | some v =>
          simp only [Option.map_some, Option.some.injEq] at hj ⊢
          rw [hv j f hgj, hj]
          simp only
          rw [written_append]

theorem sinv_step {keeps : Bool} {ops : List Op} {w w' : World} {op : Op} (h : SInv ops w)
    (hst : step keeps w op = some w') : SInv (ops ++ [op]) w' := by
  obtain ⟨h1, h2⟩ := step_spec h.inv hst
  have hnone : ∀ i j b, w'.frame i j = none → written i j (ops ++ [op]) b = b := by
    intro i j b hf
    have hf0 : w.frame i j = none := by
      cases hx : w.frame i j with
      | none => rfl
      | some f => rw [(h2 i j f hx).1] at hf; cases hf
    rw [written_append, h.none i j b hf0, written_step hst hf0]
  refine ⟨h1, hnone, ?_⟩
  -- a reader that was there and is as it was
  have hsame : ∀ (i : Nat) (r : Rd), w.readers[i]? = some r →
      (∀ b, r.buf = some b → b.value w'.mem = b.value w.mem) →
      ∃ vs s, Reads (newReaderSize r.size r.source) vs s ∧ (∀ b, r.buf = some b → b.value w'.mem = s) ∧
        r.got.map (Option.map (MFrame.value w'.mem)) = edited i (ops ++ [op]) vs := by
    intro i r hr hv
    obtain ⟨vs, s, q1, q2, q3⟩ := h.reads i r hr
    exact ⟨vs, s, q1, fun b hb => by rw [hv b hb, q2 b hb],
      got_step (fun j f hf => (h2 i j f (frame_some.mpr ⟨r, hr, hf⟩)).2) q3⟩
  intro i r hr
  cases op with
  | make d =>
    simp only [step, Option.some.injEq] at hst
    subst hst
    exact hsame i r hr (fun b hb => value_alloc (h.inv.ok i r b hr hb) _)
  | append i' j' d =>
    simp only [step] at hst
    cases hf' : w.frame i' j' with
    | none => rw [hf'] at hst; cases hst
    | some f' =>
      rw [hf'] at hst; simp only at hst
      split at hst <;> (simp only [Option.some.injEq] at hst; subst hst)
      · refine hsame i r hr (fun b hb => value_other (getD_set_ne ?_))
        intro e
        exact (h.inv.placed i' j' f' hf').dead ⟨i, r, b, hr, hb, e⟩
      · exact hsame i r hr (fun b hb => value_alloc (h.inv.ok i r b hr hb) _)
  | poke i' j' p x =>
    simp only [step] at hst
    cases hf' : w.frame i' j' with
    | none => rw [hf'] at hst; cases hst
    | some f' =>
      rw [hf'] at hst; simp only at hst
      split at hst
      · simp only [Option.some.injEq] at hst; subst hst
        refine hsame i r hr (fun b hb => value_other (getD_set_ne ?_))
        intro e
        exact (h.inv.placed i' j' f' hf').dead ⟨i, r, b, hr, hb, e⟩
      · cases hst
  | newReader n source =>
    simp only [step, Option.some.injEq] at hst
    subst hst
    simp only at hr
    rcases Nat.lt_or_ge i w.readers.length with hi | hi
    · rw [List.getElem?_append_left hi] at hr
      exact hsame i r hr (fun b hb => value_alloc (h.inv.ok i r b hr hb) _)
    · rw [List.getElem?_append_right hi] at hr
      cases hkk : i - w.readers.length with
      | succ q => rw [hkk] at hr; simp at hr
      | zero =>
        rw [hkk] at hr
        simp only [List.getElem?_cons_zero, Option.some.injEq] at hr
        subst hr
        refine ⟨[], _, .nil, ?_, rfl⟩
        intro b hb
        simp only [Option.some.injEq] at hb
        subst hb
        simp [MBuf.value, MBuf.size, newReaderSize, load, MBuf.unread, alloc]
  | read i' =>
    obtain ⟨r1, s, xs, b, hr1, hs, hw, hk, hb, hx, hres⟩ := step_read h.inv hst
    by_cases hii : i = i'
    · subst hii
      have hi : i < w.readers.length := by
        rcases Nat.lt_or_ge i w.readers.length with hlt | hge
        · exact hlt
        · rw [List.getElem?_eq_none hge] at hr1; cases hr1
      have hrr : r = { r1 with buf := b, got := r1.got ++ xs } := by
        rw [hw] at hr
        simp only at hr
        rw [List.getElem?_set_self hi] at hr
        exact (Option.some.inj hr).symm
      obtain ⟨vs, s0, q1, q2, q3⟩ := h.reads i r1 hr1
      have hgot : r1.got.map (Option.map (MFrame.value w'.mem)) = edited i (ops ++ [.read i]) vs :=
        got_step (fun j f hf => (h2 i j f (frame_some.mpr ⟨r1, hr1, hf⟩)).2) q3
      have hlen : vs.length = r1.got.length := by
        have := congrArg List.length q3
        rw [edited_length] at this
        simpa using this.symm
      have hv := q2 s hs
      rw [hrr]
      rcases hres with ⟨f, s', e1, e2, e3⟩ | ⟨s', e1, e2, e3⟩ | ⟨e1, e2, e, e3⟩
      · subst e1; subst e2
        rw [hv] at e3
        refine ⟨vs ++ [some (f.value w'.mem)], s'.value w'.mem, q1.frame e3, ?_, ?_⟩
        · intro b' hb'; simp only [Option.some.injEq] at hb'; subst hb'; rfl
        · rw [edited_snoc]
          simp only [List.map_append, hgot, List.map_cons, List.map_nil, Option.map_some]
          congr 2
          have hno : w.frame i vs.length = Option.none := by
            cases hq : w.frame i vs.length with
            | none => rfl
            | some g =>
              obtain ⟨r2, z1, z2⟩ := frame_some.mp hq
              rw [hr1] at z1; cases z1
              rw [hlen, List.getElem?_eq_none (Nat.le_refl _)] at z2; cases z2
          rw [written_append, h.none _ _ _ hno]
          rfl
      · subst e1; subst e2
        rw [hv] at e3
        refine ⟨vs ++ [Option.none], s'.value w'.mem, q1.beat e3, ?_, ?_⟩
        · intro b' hb'; simp only [Option.some.injEq] at hb'; subst hb'; rfl
        · rw [edited_snoc]
          simp only [List.map_append, hgot, List.map_cons, List.map_nil, Option.map_none]
      · subst e1; subst e2
        refine ⟨vs, s0, q1, ?_, ?_⟩
        · intro b' hb'; simp at hb'
        · simpa using hgot
    · have hrr : w.readers[i]? = some r := by
        rw [hw] at hr
        simp only at hr
        rwa [List.getElem?_set_ne (Ne.symm hii)] at hr
      refine hsame i r hrr (fun b' hb' => value_other ?_)
      rw [hw]
      exact hk.same _ (h.inv.ok i r b' hrr hb').there (h.inv.bufs i i' r r1 b' s hrr hb' hr1 hs hii)

theorem sinv_run {keeps : Bool} {pre ops : List Op} {w w' : World} (h : SInv pre w) (hr : run keeps w ops = some w') :
    SInv (pre ++ ops) w' := by
  induction ops generalizing pre w with
  | nil =>
    simp only [run, Option.some.injEq] at hr
    subst hr
    simpa using h
  | cons op ops ih =>
    simp only [run] at hr
    cases hst : step keeps w op with
    | none => rw [hst] at hr; cases hr
    | some w1 =>
      rw [hst] at hr
      have := ih (sinv_step h hst) hr
      simpa using this

/-- Successive reads are the first results of the flat reader. -/
theorem reads_flat {a : BR} {vs : List (Option Frame)} {s : BR} (ha : a.Inv) (h : Reads a vs s) :
    s.Inv ∧ s.tot.length ≤ a.tot.length ∧ ∀ fuel, a.tot.length < fuel →
      ∃ fuel', s.tot.length < fuel' ∧ (readAllAux fuel a.tot).1 = vs ++ (readAllAux fuel' s.tot).1 := by
  induction h with
  | nil => exact ⟨ha, Nat.le_refl _, fun fuel hf => ⟨fuel, hf, rfl⟩⟩
  | @frame vs s s' f _ hc ih =>
    obtain ⟨i1, i2, i3⟩ := ih
    have hsp := cReadFrame_spec s i1
    cases hrf : Stomp.readFrame s.tot with
    | err e => rw [hrf] at hsp; simp only at hsp; rw [hc] at hsp; cases hsp
    | heartbeat r => rw [hrf] at hsp; obtain ⟨_, e, _⟩ := hsp; rw [hc] at e; cases e
    | frame g r =>
      rw [hrf] at hsp
      obtain ⟨s2, e, e1, e2, _⟩ := hsp
      rw [hc] at e
      cases e
      have hlt := (readFrame_consumes s.tot).1 _ _ hrf
      refine ⟨e1, by rw [e2]; omega, fun fuel hf => ?_⟩
      obtain ⟨k, hk, hk2⟩ := i3 fuel hf
      cases k with
      | zero => omega
      | succ k =>
        refine ⟨k, by rw [e2]; omega, ?_⟩
        rw [hk2]
        simp only [readAllAux, hrf, e2, List.append_assoc, List.cons_append, List.nil_append]
  | @beat vs s s' _ hc ih =>
    obtain ⟨i1, i2, i3⟩ := ih
    have hsp := cReadFrame_spec s i1
    cases hrf : Stomp.readFrame s.tot with
    | err e => rw [hrf] at hsp; simp only at hsp; rw [hc] at hsp; cases hsp
    | frame g r => rw [hrf] at hsp; obtain ⟨_, e, _⟩ := hsp; rw [hc] at e; cases e
    | heartbeat r =>
      rw [hrf] at hsp
      obtain ⟨s2, e, e1, e2, _⟩ := hsp
      rw [hc] at e
      cases e
      have hlt := (readFrame_consumes s.tot).2 _ hrf
      refine ⟨e1, by rw [e2]; omega, fun fuel hf => ?_⟩
      obtain ⟨k, hk, hk2⟩ := i3 fuel hf
      cases k with
      | zero => omega
      | succ k =>
        refine ⟨k, by rw [e2]; omega, ?_⟩
        rw [hk2]
        simp only [readAllAux, hrf, e2, List.append_assoc, List.cons_append, List.nil_append]

end Stomp.Mem
