import Verif.Proofs.HeaderHeap
import Verif.Model.Frame
/-! # C07 (Header is an ordered multimap) and C08 (clones are independent) -/
namespace Stomp
open Heap Spec

/-- Every operation of the program names existing objects when it runs. -/
def legalRun : Store → List Op → Prop
  | _, [] => True
  | s, op :: ops => s.legal op.spec ∧ legalRun (s.apply op.spec) ops

instance legalRunDec : (s : Store) → (ops : List Op) → Decidable (legalRun s ops)
  | _, [] => isTrue trivial
  | s, op :: ops =>
    have := legalRunDec (s.apply op.spec) ops
    inferInstanceAs (Decidable (s.legal op.spec ∧ legalRun (s.apply op.spec) ops))

def applyAll (s : Store) (ops : List Op) : Store := ops.foldl (fun s op => s.apply op.spec) s

theorem run_spec (g : Nat → Nat → Nat) (H : HHeap) (hI : Inv H) (ops : List Op) (hl : legalRun (abs H) ops) :
    ∃ H', run g H ops = some H' ∧ Inv H' ∧ abs H' = applyAll (abs H) ops := by
  induction ops generalizing H with
  | nil => exact ⟨H, rfl, hI, rfl⟩
  | cons op ops ih =>
    obtain ⟨l1, l2⟩ := hl
    obtain ⟨H1, e1, e2, e3⟩ := exec_spec g H hI op l1
    obtain ⟨H2, r1, r2, r3⟩ := ih H1 e2 (by rw [e3]; exact l2)
    refine ⟨H2, by simp [run, e1, r1], r2, ?_⟩
    rw [r3, e3]; rfl

def emptyStore : Store := ⟨[], []⟩

/-- **C07.** After any program of header and frame operations, for any slice growth policy: the program does
not panic, and `Len`, `GetAt`, `Contains`/`Get`, `GetAll` of every header are those of the list of pairs
obtained by running the same program on independent values. -/
theorem C07_multimap (g : Nat → Nat → Nat) (ops : List Op) (hl : legalRun emptyStore ops) :
    ∃ H, run g HHeap.empty ops = some H ∧
      ∀ (i : Nat) (m : Multimap), (applyAll emptyStore ops).hdrs[i]? = some m →
        len H i = some m.length ∧ (∀ idx : Nat, getAt H i idx = m[idx]?) ∧
        (∀ k, contains H i k = some (mmFirst m k)) ∧ (∀ k, getAll H i k = some (mmAll m k)) := by
  obtain ⟨H, h1, h2, h3⟩ := run_spec g HHeap.empty inv_empty ops hl
  refine ⟨H, h1, ?_⟩
  intro i m hm
  have hm' : (abs H).hdrs[i]? = some m := by rw [h3]; exact hm
  refine ⟨?_, ?_, ?_, ?_⟩
  · rw [len_spec H h2, hm']; rfl
  · intro idx; rw [getAt_spec H h2, hm']; rfl
  · intro k; rw [contains_spec H h2, hm']; rfl
  · intro k; rw [getAll_spec H h2, hm']; rfl

/-- A program that adds, sets, deletes, clones and merges. -/
def sampleProgram : List Op :=
  [.newHeader [b!"a", b!"1", b!"b"], .add 0 b!"a" b!"2", .clone 0, .set 0 b!"a" b!"9", .del 1 b!"a",
   .addHeader 1 0, .set 1 b!"z" b!"0", .newFrame b!"SEND" [b!"x", b!"y"], .setBody 0 b!"body",
   .cloneFrame 0, .pokeBody 1 0 66, .add 3 b!"k" b!"v", .del 2 b!"x"]

theorem sampleProgram_legal : legalRun emptyStore sampleProgram := by
  decide

example : applyAll emptyStore sampleProgram =
    ⟨[[(b!"a", b!"9"), (b!"b", []), (b!"a", b!"2")],
      [(b!"b", []), (b!"a", b!"9"), (b!"b", []), (b!"a", b!"2"), (b!"z", b!"0")],
      [], [(b!"x", b!"y"), (b!"k", b!"v")]],
     [⟨b!"SEND", 2, some b!"body"⟩, ⟨b!"SEND", 3, some b!"Body"⟩]⟩ := by decide

example (g : Nat → Nat → Nat) : ∃ H, run g HHeap.empty sampleProgram = some H :=
  (C07_multimap g _ sampleProgram_legal).imp (fun _ h => h.1)

/-- **C07.** The laws of the value-level operations: `Set` changes the first entry only or appends; `Del`
removes all and only the entries of its key. -/
theorem C07_put_laws (m : Multimap) (k v : Bytes) :
    mmFirst (mmPut m k v) k = some v ∧ (mmPut m k v).filter (fun e => e.1 ≠ k) = m.filter (fun e => e.1 ≠ k) ∧
    (mmAll (mmPut m k v) k).tail = (mmAll m k).tail ∧
    mmAll (mmRemove m k) k = [] ∧ ∀ k', k' ≠ k → mmAll (mmRemove m k) k' = mmAll m k' := by
  refine ⟨?_, ?_, ?_, ?_, ?_⟩
  · induction m with
    | nil => simp [mmPut, mmFirst, mmAll]
    | cons e m ih =>
      unfold mmPut at ih ⊢
      simp only [List.findIdx?_cons]
      by_cases h : e.1 = k
      · simp [h, mmFirst, mmAll]
      · simp only [h, decide_false]
        cases hi : m.findIdx? (fun e => decide (e.1 = k)) with
        | none =>
          rw [hi] at ih
          simp only [Bool.false_eq_true, if_false, Option.map_none]
          unfold mmFirst mmAll at ih ⊢
          rw [List.cons_append, List.filter_cons_of_neg (by simp [h])]
          exact ih
        | some q =>
          rw [hi] at ih
          simp only [Bool.false_eq_true, if_false, Option.map_some]
          unfold mmFirst mmAll at ih ⊢
          rw [List.set_cons_succ, List.filter_cons_of_neg (by simp [h])]
          exact ih
  · induction m with
    | nil => simp [mmPut]
    | cons e m ih =>
      unfold mmPut at ih ⊢
      simp only [List.findIdx?_cons]
      by_cases h : e.1 = k
      · simp [h]
      · simp only [h, decide_false]
        cases hi : m.findIdx? (fun e => decide (e.1 = k)) with
        | none =>
          rw [hi] at ih
          simp only [Bool.false_eq_true, if_false, Option.map_none]
          rw [List.cons_append, List.filter_cons_of_pos (by simp [h]), List.filter_cons_of_pos (by simp [h]),
            ih]
        | some q =>
          rw [hi] at ih
          simp only [Bool.false_eq_true, if_false, Option.map_some]
          rw [List.set_cons_succ, List.filter_cons_of_pos (by simp [h]),
            List.filter_cons_of_pos (by simp [h]), ih]
  · induction m with
    | nil => simp [mmPut, mmAll]
    | cons e m ih =>
      unfold mmPut at ih ⊢
      simp only [List.findIdx?_cons]
      by_cases h : e.1 = k
      · simp [h, mmAll]
      · simp only [h, decide_false]
        cases hi : m.findIdx? (fun e => decide (e.1 = k)) with
        | none =>
          rw [hi] at ih
          simp only [Bool.false_eq_true, if_false, Option.map_none]
          unfold mmAll at ih ⊢
          rw [List.cons_append, List.filter_cons_of_neg (by simp [h]), List.filter_cons_of_neg (by simp [h])]
          exact ih
        | some q =>
          rw [hi] at ih
          simp only [Bool.false_eq_true, if_false, Option.map_some]
          unfold mmAll at ih ⊢
          rw [List.set_cons_succ, List.filter_cons_of_neg (by simp [h]), List.filter_cons_of_neg (by simp [h])]
          exact ih
  · unfold mmAll mmRemove
    rw [List.filter_filter]
    simp
  · intro k' hk
    unfold mmAll mmRemove
    rw [List.filter_filter]
    congr 1
    apply List.filter_congr
    intro e _
    by_cases h : e.1 = k'
    · simp [h, hk]
    · simp [h]

/-- **C07.** The value-level functions used by the rest of the model (`Model/Header.lean`) are these
multimap operations. -/
theorem C07_value_model (h : Header) (k v : Bytes) :
    h.contains k = mmFirst h k ∧ h.getAll k = mmAll h k ∧ h.del k = mmRemove h k ∧ h.set k v = mmPut h k v ∧
    ∀ h', h.addHeader h' = h ++ h' := by
  refine ⟨?_, ?_, ?_, ?_, ?_⟩
  · induction h with
    | nil => rfl
    | cons e h ih =>
      unfold Header.contains
      by_cases hk : e.1 = k
      · simp [hk, mmFirst, mmAll]
      · simp only [hk, if_false, ih, mmFirst, mmAll]
        rw [List.filter_cons_of_neg (by simp [hk])]
  · induction h with
    | nil => rfl
    | cons e h ih =>
      unfold Header.getAll
      by_cases hk : e.1 = k
      · simp [hk, ih, mmAll]
      · simp only [hk, if_false, ih, mmAll]
        rw [List.filter_cons_of_neg (by simp [hk])]
  · induction h with
    | nil => rfl
    | cons e h ih =>
      unfold Header.del
      by_cases hk : e.1 = k
      · simp [hk, ih, mmRemove]
      · simp only [hk, if_false, ih, mmRemove]
        rw [List.filter_cons_of_pos (by simp [hk])]
  · induction h with
    | nil => rfl
    | cons e h ih =>
      unfold Header.set
      unfold mmPut at ih ⊢
      simp only [List.findIdx?_cons]
      by_cases hk : e.1 = k
      · simp [hk]
      · simp only [hk, if_false, ih, decide_false]
        cases hi : h.findIdx? (fun e => decide (e.1 = k)) <;> simp
  · intro h'
    unfold Header.addHeader
    induction h' generalizing h with
    | nil => simp
    | cons e h' ih => rw [List.foldl_cons, ih]; simp [Header.add]

/-- **C07 (excluded case).** `h.AddHeader(h)` on a non-empty header never finishes: the loop bound grows with
every entry added, for every amount of fuel. -/
theorem C07_addHeader_self_diverges (g : Nat → Nat → Nat) (H : HHeap) (hI : Inv H) (i : Nat) (m : Multimap)
    (hm : (abs H).hdrs[i]? = some m) (k : Nat) (hk : k < m.length) (fuel : Nat) :
    addHeaderLoop g fuel k H i i = none := by
  induction fuel generalizing k H m with
  | zero => rfl
  | succ fuel ih =>
    unfold addHeaderLoop
    rw [len_spec H hI i, hm]
    simp only [Option.map_some]
    rw [if_pos hk, getAt_spec H hI i k, hm]
    simp only [Option.bind_some, List.getElem?_eq_getElem hk]
    have hi : i < (abs H).hdrs.length := (List.getElem?_eq_some_iff.1 hm).1
    obtain ⟨H1, a1, a2, a3⟩ := add_spec g H hI i hi m[k].1 m[k].2
    rw [a1]
    simp only
    refine ih H1 a2 (m ++ [(m[k].1, m[k].2)]) ?_ (k + 1) (by simp; omega)
    rw [a3]
    simp only [Store.apply]
    rw [List.getElem?_modify, hm]
    simp

example : ∃ H, run (fun c _ => 2 * c) HHeap.empty [.newHeader [b!"a", b!"b"]] = some H ∧ Inv H ∧
    (abs H).hdrs[0]? = some [(b!"a", b!"b")] := by
  obtain ⟨H, h1, h2, h3⟩ := run_spec (fun c _ => 2 * c) HHeap.empty inv_empty
    [.newHeader [b!"a", b!"b"]] ⟨trivial, trivial⟩
  exact ⟨H, h1, h2, by rw [h3]; rfl⟩

/-! ## C08 -/

/-- The value of a frame: command, header entries and body. -/
def frameValue (s : Store) (f : Nat) : Option (Bytes × Multimap × Option Bytes) :=
  s.frames[f]?.map (fun v => (v.command, s.hdrs.getD v.hdr [], v.body))

/-- The same, read from the heap. -/
def heapFrameValue (H : HHeap) (f : Nat) : Option (Bytes × Multimap × Option Bytes) := frameValue (abs H) f

/-- The operation does not name header `h` or frame `f` as its target (it may still read them: clone them or
copy from them). -/
def untouched (h f : Nat) : Op → Prop
  | .add h' _ _ | .set h' _ _ | .del h' _ | .addHeader h' _ => h' ≠ h
  | .setCommand f' _ | .setBody f' _ | .pokeBody f' _ _ => f' ≠ f
  | _ => True

theorem getD_append_of_lt {α} (l l' : List α) (i : Nat) (d : α) (h : i < l.length) :
    (l ++ l').getD i d = l.getD i d := by
  simp [List.getD, List.getElem?_append_left h]

theorem getD_modify_ne {α} (l : List α) (i j : Nat) (f : α → α) (d : α) (h : i ≠ j) :
    (l.modify i f).getD j d = l.getD j d := by
  simp [List.getD, h]

/-- An operation with another target leaves the value of a frame alone. -/
theorem apply_untouched (s : Store) (op : Op) (f : Nat) (v : FrameVal) (hv : s.frames[f]? = some v)
    (hh : v.hdr < s.hdrs.length) (hu : untouched v.hdr f op) :
    (s.apply op.spec).frames[f]? = some v ∧ (s.apply op.spec).hdrs.getD v.hdr [] = s.hdrs.getD v.hdr [] ∧
    v.hdr < (s.apply op.spec).hdrs.length := by
  have hf : f < s.frames.length := (List.getElem?_eq_some_iff.1 hv).1
  cases op with
  | newHeader es =>
    exact ⟨hv, getD_append_of_lt _ _ _ _ hh, by simp [Op.spec, Store.apply]; omega⟩
  | add h k v' => exact ⟨hv, getD_modify_ne _ _ _ _ _ hu, by simpa [Op.spec, Store.apply] using hh⟩
  | set h k v' => exact ⟨hv, getD_modify_ne _ _ _ _ _ hu, by simpa [Op.spec, Store.apply] using hh⟩
  | del h k => exact ⟨hv, getD_modify_ne _ _ _ _ _ hu, by simpa [Op.spec, Store.apply] using hh⟩
  | addHeader h h' => exact ⟨hv, getD_modify_ne _ _ _ _ _ hu, by simpa [Op.spec, Store.apply] using hh⟩
  | clone h => exact ⟨hv, getD_append_of_lt _ _ _ _ hh, by simp [Op.spec, Store.apply]; omega⟩
  | newFrame c es =>
    refine ⟨?_, getD_append_of_lt _ _ _ _ hh, by simp [Op.spec, Store.apply]; omega⟩
    simp only [Op.spec, Store.apply]
    rw [List.getElem?_append_left hf, hv]
  | cloneFrame f' =>
    simp only [Op.spec, Store.apply]
    cases hf' : s.frames[f']? with
    | none => exact ⟨hv, rfl, hh⟩
    | some w =>
      refine ⟨?_, getD_append_of_lt _ _ _ _ hh, by simp; omega⟩
      simp only
      rw [List.getElem?_append_left hf, hv]
  | setCommand f' c =>
    refine ⟨?_, rfl, hh⟩
    simp only [Op.spec, Store.apply]
    rw [List.getElem?_modify]
    simp only [untouched] at hu
    simp [hu, hv]
  | setBody f' c =>
    refine ⟨?_, rfl, hh⟩
    simp only [Op.spec, Store.apply]
    rw [List.getElem?_modify]
    simp only [untouched] at hu
    simp [hu, hv]
  | pokeBody f' p x =>
    refine ⟨?_, rfl, hh⟩
    simp only [Op.spec, Store.apply]
    rw [List.getElem?_modify]
    simp only [untouched] at hu
    simp [hu, hv]

theorem applyAll_untouched (s : Store) (ops : List Op) (f : Nat) (v : FrameVal) (hv : s.frames[f]? = some v)
    (hh : v.hdr < s.hdrs.length) (hu : ∀ op ∈ ops, untouched v.hdr f op) :
    frameValue (applyAll s ops) f = frameValue s f := by
  induction ops generalizing s with
  | nil => rfl
  | cons op ops ih =>
    obtain ⟨a1, a2, a3⟩ := apply_untouched s op f v hv hh (hu op (by simp))
    have := ih (s.apply op.spec) a1 a3 (fun o ho => hu o (by simp [ho]))
    have e : applyAll s (op :: ops) = applyAll (s.apply op.spec) ops := rfl
    rw [e, this]
    unfold frameValue
    rw [a1, hv]
    simp only [Option.map_some]
    rw [a2]

/-- **C08.** For any heap reached by any program, any growth policy: cloning frame `f` makes a new frame `c`
(with a new header) of equal value, and after any further operations the value of the clone is unchanged
unless an operation targets the clone itself, and the value of the original is unchanged unless an operation
targets the original itself: in-place edits and appends into spare capacity never leak. -/
theorem C08_clone_independent (g : Nat → Nat → Nat) (before after : List Op) (f : Nat)
    (hl : legalRun emptyStore (before ++ [.cloneFrame f] ++ after)) :
    ∃ H0 H1 H2 h c hc,
      run g HHeap.empty before = some H0 ∧ exec g H0 (.cloneFrame f) = some H1 ∧ run g H1 after = some H2 ∧
      H0.frames[f]?.map (·.hdr) = some h ∧ c = H0.frames.length ∧ H1.frames[c]?.map (·.hdr) = some hc ∧
      c ≠ f ∧ hc ≠ h ∧
      heapFrameValue H1 c = heapFrameValue H0 f ∧ heapFrameValue H1 f = heapFrameValue H0 f ∧
      ((∀ op ∈ after, untouched hc c op) → heapFrameValue H2 c = heapFrameValue H0 f) ∧
      ((∀ op ∈ after, untouched h f op) → heapFrameValue H2 f = heapFrameValue H0 f) := by
  have split : ∀ (s : Store) (a b : List Op), legalRun s (a ++ b) → legalRun s a ∧ legalRun (applyAll s a) b := by
    intro s a
    induction a generalizing s with
    | nil => intro b h; exact ⟨trivial, h⟩
    | cons op a ih =>
      intro b h
      obtain ⟨h1, h2⟩ := h
      obtain ⟨i1, i2⟩ := ih _ b h2
      exact ⟨⟨h1, i1⟩, i2⟩
  obtain ⟨l1, l3⟩ := split _ _ _ hl
  obtain ⟨l1, l2⟩ := split _ _ _ l1
  obtain ⟨H0, r1, r2, r3⟩ := run_spec g HHeap.empty inv_empty before l1
  have r3' : abs H0 = applyAll emptyStore before := r3
  have hleg : (abs H0).legal (Op.cloneFrame f).spec := by rw [r3']; exact l2.1
  obtain ⟨H1, e1, e2, e3⟩ := exec_spec g H0 r2 (.cloneFrame f) hleg
  have hrun : legalRun (abs H1) after := by
    have : applyAll emptyStore (before ++ [.cloneFrame f]) = abs H1 := by
      rw [e3, r3']; simp [applyAll]
    rw [← this]; exact l3
  obtain ⟨H2, s1, s2, s3⟩ := run_spec g H1 e2 after hrun
  have hf : f < (abs H0).frames.length := hleg
  have hv : (abs H0).frames[f]? = some (abs H0).frames[f] := List.getElem?_eq_getElem hf
  generalize (abs H0).frames[f] = v at hv
  have hfl : f < H0.frames.length := by simpa [abs] using hf
  have hfo : H0.frames[f]? = some H0.frames[f] := List.getElem?_eq_getElem hfl
  have hvh : H0.frames[f].hdr = v.hdr := by
    have : (abs H0).frames[f]? = some (absFrame H0 H0.frames[f]) := by simp [abs, hfo]
    rw [hv] at this
    simp at this
    rw [this]; rfl
  have hhlt : v.hdr < (abs H0).hdrs.length := by
    have := r2.fh f _ hfo
    rw [hvh] at this; simpa [abs] using this
  have hap : abs H1 = ⟨(abs H0).hdrs ++ [(abs H0).hdrs.getD v.hdr []],
      (abs H0).frames ++ [⟨v.command, (abs H0).hdrs.length, v.body⟩]⟩ := by
    rw [e3]; simp only [Op.spec, Store.apply, hv]
  have hcl : H0.frames.length = (abs H0).frames.length := by simp [abs]
  have hvc : (abs H1).frames[H0.frames.length]? = some ⟨v.command, (abs H0).hdrs.length, v.body⟩ := by
    rw [hap, hcl]; simp
  have hv1 : (abs H1).frames[f]? = some v := by
    rw [hap]; simp only; rw [List.getElem?_append_left hf, hv]
  have hH1c : H1.frames[H0.frames.length]?.map (·.hdr) = some (abs H0).hdrs.length := by
    have : (abs H1).frames[H0.frames.length]? = (H1.frames[H0.frames.length]?).map (absFrame H1) := by
      simp [abs]
    rw [hvc] at this
    cases ho : H1.frames[H0.frames.length]? with
    | none => rw [ho] at this; cases this
    | some o =>
      rw [ho] at this
      simp only [Option.map_some, Option.some.injEq] at this ⊢
      have h2 := congrArg FrameVal.hdr this
      exact h2.symm
  have val1 : frameValue (abs H1) H0.frames.length = frameValue (abs H0) f := by
    unfold frameValue
    rw [hvc, hv]
    simp only [Option.map_some]
    rw [hap]
    simp only
    rw [getD_append_self]
  have val2 : frameValue (abs H1) f = frameValue (abs H0) f := by
    unfold frameValue
    rw [hv1, hv]
    simp only [Option.map_some]
    rw [hap]
    simp only
    rw [getD_append_of_lt _ _ _ _ hhlt]
  have hl1 : (abs H1).hdrs.length = (abs H0).hdrs.length + 1 := by rw [hap]; simp
  refine ⟨H0, H1, H2, v.hdr, H0.frames.length, (abs H0).hdrs.length, r1, e1, s1, ?_, rfl, hH1c, by omega,
    by omega, val1, val2, ?_, ?_⟩
  · rw [hfo]; simp [hvh]
  · intro hu
    unfold heapFrameValue
    rw [s3, applyAll_untouched (abs H1) after _ _ hvc (by simp only; omega) hu]
    exact val1
  · intro hu
    unfold heapFrameValue
    rw [s3, applyAll_untouched (abs H1) after f v hv1 (by omega) hu]
    exact val2

/-- The program `sampleProgram` clones frame 0 and then edits the clone's body and both headers. -/
example : legalRun emptyStore ([.newFrame b!"SEND" [b!"x", b!"y"], .setBody 0 b!"b"] ++ [.cloneFrame 0] ++
    [.pokeBody 1 0 66, .add 0 b!"k" b!"v", .del 1 b!"x"]) := by
  decide

end Stomp
