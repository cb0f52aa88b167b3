import Verif.Proofs.MemoryWorld
import Verif.Proofs.MemorySize
import Verif.Props.Bufio
/-! # C81 (a frame that has been read does not change) and C82 (memory in proportion to the bytes) -/
namespace Stomp.Mem

open Stomp.Mem.Spec

/-! ## C81 -/

/-- **C81.** A frame that has been read does not change, whatever the program does afterwards (reads from this reader
and others, writes to bodies, appends to them, its own arrays): command and header stay as they are, though their
strings may lie in an array that a slice was made from; the body is what the program itself has written to it. This
holds whether or not `strings.Replacer` copies. -/
theorem C81_unchanged (keeps : Bool) (ops ops' : List Op) (w w' : World) (h : run keeps World.init ops = some w)
    (h' : run keeps w ops' = some w') (i j : Nat) (f : MFrame) (hf : w.frame i j = some f) :
    w'.frame i j = some f ∧
      (f.value w'.mem).command = (f.value w.mem).command ∧ (f.value w'.mem).header = (f.value w.mem).header ∧
      (f.value w'.mem).body = written i j ops' (f.value w.mem).body := by
  obtain ⟨h1, h2⟩ := (run_unchanged (run_unchanged winv_init h).1 h').2 i j f hf
  exact ⟨h1, by rw [h2], by rw [h2], by rw [h2]⟩

/-- **C81.** What a program finds in the frames of a reader, at any time and all of them together, are the frames of
the byte stream of that reader (as C02 and C06 have it), with its own writes to the bodies: nothing has been lost to the
reuse of the buffer, however small it is and however the stream was cut into reads. -/
theorem C81_stream (keeps : Bool) (ops : List Op) (w : World) (h : run keeps World.init ops = some w)
    (i : Nat) (r : Rd) (hr : w.readers[i]? = some r) (hs : NoStall r.source) :
    r.got.map (Option.map (MFrame.value w.mem)) =
      ((readAll r.source.flatten).1.take r.got.length).mapIdx
        (fun j v => v.map (fun f => { f with body := written i j ops f.body })) := by
  have hinv := sinv_run sinv_init h
  obtain ⟨vs, s, h1, _, h3⟩ := hinv.reads i r hr
  have hi : (newReaderSize r.size r.source).Inv := ⟨by simp [newReaderSize]; omega, Or.inl rfl, hs⟩
  have ht : (newReaderSize r.size r.source).tot = r.source.flatten := by simp [newReaderSize, BR.tot]
  obtain ⟨_, _, hflat⟩ := reads_flat hi h1
  obtain ⟨k, _, hk⟩ := hflat (r.source.flatten.length + 1) (by rw [ht]; omega)
  rw [ht] at hk
  have hlen : vs.length = r.got.length := by
    have := congrArg List.length h3
    rw [edited_length] at this
    simpa using this.symm
  rw [h3]
  unfold readAll
  rw [hk, ← hlen, List.take_append_of_le_length (Nat.le_refl _), List.take_length]
  rfl

namespace MemEx

/-- Two readers with the smallest buffer; the stream of the first comes in two pieces. -/
def ops : List Op :=
  [.newReader 0 [b!"SEND\ndestination:/queue/a\nx:1\n\nhel", b!"lo\x00\nSEND\na\\cb:2\ncontent-length:3\n\nxyz\x00"],
   .newReader 0 [b!"MESSAGE\nmessage-id:77\n\nother\x00"], .read 0, .make b!"mine"]

/-- Then: the rest is read, and the program writes to the first body and behind it. -/
def more : List Op :=
  [.read 1, .read 0, .poke 0 0 0 72, .read 0, .append 0 0 b!"!", .append 0 0 b!" and more than fits"]

def world : Option World := run true World.init ops
def after : Option World := world.bind (fun w => run true w more)

/-- The frames of reader `i` as they read now. -/
def now (w : World) (i : Nat) : Option (List (Option Frame)) :=
  w.readers[i]?.map (fun r => r.got.map (Option.map (MFrame.value w.mem)))

example : world.bind (now · 0) =
    some [some ⟨b!"SEND", [(b!"destination", b!"/queue/a"), (b!"x", b!"1")], b!"hello"⟩] := by decide +kernel

example : after.bind (now · 0) =
    some [some ⟨b!"SEND", [(b!"destination", b!"/queue/a"), (b!"x", b!"1")], b!"Hello"⟩, none,
      some ⟨b!"SEND", [(b!"a:b", b!"2"), (b!"content-length", b!"3")], b!"xyz"⟩] := by decide +kernel

example : after.bind (now · 1) = some [some ⟨b!"MESSAGE", [(b!"message-id", b!"77")], b!"other"⟩] := by
  decide +kernel

/-- The hypotheses of `C81_unchanged`. -/
example : ∃ w w' f, run true World.init ops = some w ∧ run true w more = some w' ∧ w.frame 0 0 = some f ∧
    (f.value w'.mem).body = b!"Hello" ∧ (f.value w.mem).body = b!"hello" :=
  ⟨world.get (by decide +kernel), after.get (by decide +kernel),
    ((world.get (by decide +kernel)).frame 0 0).get (by decide +kernel), by decide +kernel, by decide +kernel,
    by decide +kernel, by decide +kernel, by decide +kernel⟩

/-- That of `C81_stream`. -/
example : NoStall [b!"SEND\ndestination:/queue/a\nx:1\n\nhel",
    b!"lo\x00\nSEND\na\\cb:2\ncontent-length:3\n\nxyz\x00"] := noStall_of_nonempty _ (by decide)

/-- The strings of the header do lie in the array of the line, where nothing was replaced. -/
example : (world.bind (fun w => w.frame 0 0)).map (fun f => f.header.map (fun kv => (kv.1.arr = kv.2.arr : Bool))) =
    some [true, true] := by decide +kernel

/-- What is at stake: a slice of the buffer, which `ReadSlice` returns, changes with the next `fill`. -/
example :
    let m : Mem := [b!"ACK\nid:1\n\n\x00abcde"]
    let s : MBuf := ⟨0, 0, 16, none, [b!"fghijklmnop"]⟩
    let c : Ref := ⟨0, 0, 3⟩
    load m c = b!"ACK" ∧ load (fill m { s with r := 11 }).1 c = b!"abc" := by decide +kernel

end MemEx

/-! ## C82 -/

/-- **C82 (full statement, false).** A `Read` allocates memory in proportion to the bytes there are to read: not more
than a thousand times as many. -/
def C82_claim : Prop :=
  ∀ (keeps : Bool) (ops : List Op) (w w' : World) (i : Nat) (r : Rd) (s : MBuf), run keeps World.init ops = some w →
    w.readers[i]? = some r → r.buf = some s → step keeps w (.read i) = some w' →
    total w'.mem ≤ total w.mem + 1000 * unread s

/-- **C82.** A `Read` that returns a frame or a heart-beat has allocated at most three bytes for each byte it has
consumed. -/
theorem C82_success_partial (keeps : Bool) (ops : List Op) (w w' : World) (i : Nat) (r r' : Rd) (s s' : MBuf)
    (h : run keeps World.init ops = some w) (hr : w.readers[i]? = some r) (hs : r.buf = some s)
    (hst : step keeps w (.read i) = some w') (hr' : w'.readers[i]? = some r') (hs' : r'.buf = some s') :
    unread s' ≤ unread s ∧ total w'.mem ≤ total w.mem + 3 * (unread s - unread s') := by
  have hinv := (run_unchanged winv_init h).1
  have hok := hinv.ok i r s hr hs
  have hw' := (step_spec hinv hst).1
  have hok' := hw'.ok i r' s' hr' hs'
  have ht := readFrame_total keeps hok
  simp only [step, hr, hs] at hst
  rw [← ahead_unread hok, ← ahead_unread hok']
  have hi : i < w.readers.length := by
    rcases Nat.lt_or_ge i w.readers.length with hlt | hge
    · exact hlt
    · rw [List.getElem?_eq_none hge] at hr; cases hr
  rcases hres : readFrame keeps w.mem s with ⟨m, res⟩
  rw [hres] at hst ht
  cases res with
  | frame f s1 =>
    simp only [Option.some.injEq] at hst ht
    subst hst
    simp only at hr'
    rw [List.getElem?_set_self hi] at hr'
    cases hr'
    cases hs'
    simp only
    omega
  | heartbeat s1 =>
    simp only [Option.some.injEq] at hst ht
    subst hst
    simp only at hr'
    rw [List.getElem?_set_self hi] at hr'
    cases hr'
    cases hs'
    simp only
    omega
  | err e =>
    simp only [Option.some.injEq] at hst
    subst hst
    simp only at hr'
    rw [List.getElem?_set_self hi] at hr'
    cases hr'
    cases hs'

/-- **C82 (partial).** Any `Read` allocates less than three bytes for each byte there is to read, plus 2^32. Missing:
the body of a frame that announces its length is allocated before any of it has come, and the length is limited only
by 2^32. -/
theorem C82_partial (keeps : Bool) (ops : List Op) (w w' : World) (i : Nat) (r : Rd) (s : MBuf)
    (h : run keeps World.init ops = some w) (hr : w.readers[i]? = some r) (hs : r.buf = some s)
    (hst : step keeps w (.read i) = some w') : total w'.mem < total w.mem + 3 * unread s + 2 ^ 32 := by
  have hinv := (run_unchanged winv_init h).1
  have hok := hinv.ok i r s hr hs
  have ht := readFrame_total keeps hok
  simp only [step, hr, hs] at hst
  rw [← ahead_unread hok]
  rcases hres : readFrame keeps w.mem s with ⟨m, res⟩
  rw [hres] at hst ht
  cases res <;> (simp only [Option.some.injEq] at hst ht; subst hst; simp only; omega)

namespace MemEx

/-- Thirty-five bytes, from a peer that has not even logged in. -/
def announce : Bytes := b!"CONNECT\ncontent-length:4294967295\n\n"

def m0 : Mem := [List.replicate 16 0]
def s0 : MBuf := ⟨0, 0, 0, none, [announce]⟩

/-- Where the reader stands when it has read the header. -/
def start : Option (Mem × List (Ref × Ref) × MBuf) := head true m0 s0

theorem start_some : start.isSome := by decide +kernel

def begun : Mem × List (Ref × Ref) × MBuf := start.get start_some

end MemEx

open MemEx in
/-- **C82 is false**: a CONNECT frame that announces a body of 2^32 - 1 bytes, and of which nothing follows, makes the
reader allocate them: four gigabytes for thirty-five bytes. -/
theorem C82_false : ¬ C82_claim := by
  intro hc
  obtain ⟨n, hn⟩ : ∃ n, n = 4294967295 := ⟨_, rfl⟩
  have hhead : head true m0 s0 = some (begun.1, begun.2.1, begun.2.2) := (Option.some_get start_some).symm
  have hlen : (loadHeader begun.1 begun.2.1).contentLength = some (some n) := by
    rw [hn]; decide +kernel
  have hsz : begun.2.2.size begun.1 = 16 := by decide +kernel
  have hb := readBody_eof (s := begun.2.2) hlen (by decide +kernel) (by decide +kernel) (by decide +kernel)
    (by omega) (by omega) (by decide +kernel)
  have hrf := readFrame_head hhead hb
  have hrun : run true World.init [.newReader 0 [announce]] =
      some ⟨m0, [⟨0, [announce], some s0, []⟩]⟩ := by decide +kernel
  have hstep := step_err (keeps := true) (w := ⟨m0, [⟨0, [announce], some s0, []⟩]⟩) (i := 0) rfl rfl hrf
  have h0 := hc true _ _ _ 0 ⟨0, [announce], some s0, []⟩ s0 hrun rfl rfl hstep
  simp only [total_alloc, List.length_replicate] at h0
  have h1 : unread s0 = 35 := by decide +kernel
  have h2 : total m0 = 16 := by decide +kernel
  rw [h1, h2] at h0
  omega

/-- The hypotheses of the partial theorems. -/
example : ∃ (w w' : World) (r r' : Rd) (s s' : MBuf), run true World.init MemEx.ops = some w ∧ w.readers[1]? = some r ∧
    r.buf = some s ∧ step true w (.read 1) = some w' ∧ w'.readers[1]? = some r' ∧ r'.buf = some s' ∧
    total w'.mem - total w.mem = 36 ∧ unread s - unread s' = 29 := by
  let w := MemEx.world.get (by decide +kernel)
  let w' := (step true w (.read 1)).get (by decide +kernel)
  refine ⟨w, w', w.readers[1]?.get (by decide +kernel), w'.readers[1]?.get (by decide +kernel),
    ((w.readers[1]?.get (by decide +kernel)).buf).get (by decide +kernel),
    ((w'.readers[1]?.get (by decide +kernel)).buf).get (by decide +kernel), ?_⟩
  decide +kernel

end Stomp.Mem
