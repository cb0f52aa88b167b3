import Verif.Model.Bufio
/-!
# Where the bytes of a frame lie: `frame.Reader` on byte arrays

`Model/Bufio` takes slices and strings for values. Here they are references into byte arrays that are written in
place: the buffer of the `bufio.Reader` is one array that every read from the transport overwrites, `fill` slides its
contents, `ReadSlice` returns a piece of it, `ReadBytes` copies, and `bytesToString` (`frame/encode.go:24-27`) makes a
string out of a slice *without* copying, so that such a string changes when the array does.

The `bufio` functions are those of the Go library (trusted base); `frame.Reader` is on top of them, function by
function. Whether `strings.Replacer.Replace` returns its argument (not a copy) when there is nothing to replace is not
documented; it is the parameter `keeps`.

Simplifications: as in `Model/Bufio` a transport `Read` returns data or an error, and after an error nobody uses the
reader; the array that `ReadBytes` returns together with an error is left out (nobody looks at it); the array of
`Header.slice` is the subject of `Model/HeaderHeap`, here a header is a list of pairs of strings. Arrays are never
freed: Go's garbage collector frees only what nothing refers to.
-/
namespace Stomp.Mem

/-- All byte arrays, named by index. -/
abbrev Mem := List Bytes

/-- A Go string or slice: array, offset, length. -/
structure Ref where
  arr : Nat
  off : Nat
  len : Nat
  deriving DecidableEq, Repr

/-- The bytes a string or slice stands for now. -/
def load (m : Mem) (r : Ref) : Bytes := ((m.getD r.arr []).drop r.off).take r.len

/-- `copy(a[i:], d)` where `d` fits. -/
def patch (a : Bytes) (i : Nat) (d : Bytes) : Bytes := a.take i ++ d ++ a.drop (i + d.length)

/-- Write `d` into array `a` at `i`. -/
def store (m : Mem) (a i : Nat) (d : Bytes) : Mem := m.set a (patch (m.getD a []) i d)

/-- A new array with contents `d`; its name is `m.length`. -/
def alloc (m : Mem) (d : Bytes) : Mem := m ++ [d]

/-- The whole of the array that `alloc m d` makes. -/
def fresh (m : Mem) (d : Bytes) : Ref := ⟨m.length, 0, d.length⟩

/-- State of a `bufio.Reader`: the array `b.buf`, the positions `b.r` and `b.w`, `b.err`; and the transport. -/
structure MBuf where
  arr : Nat
  r : Nat
  w : Nat
  err : Option IoErr
  chunks : List Bytes
  deriving DecidableEq, Repr

/-- `b.buf[b.r:b.w]`. -/
def MBuf.unread (s : MBuf) : Ref := ⟨s.arr, s.r, s.w - s.r⟩

/-- `len(b.buf)`. -/
def MBuf.size (m : Mem) (s : MBuf) : Nat := (m.getD s.arr []).length

/-- The reader with values in place of references (`Model/Bufio`). -/
def MBuf.value (m : Mem) (s : MBuf) : BR :=
  { cap := s.size m, buf := load m s.unread, err := s.err, chunks := s.chunks }

/-- Bound for the loops, that of `Model/Bufio`. -/
def MBuf.fuel (m : Mem) (s : MBuf) : Nat := (s.value m).fuel

/-- `fill`: "slide existing data to beginning". -/
def slide (m : Mem) (s : MBuf) : Mem × MBuf :=
  if s.r > 0 then (store m s.arr 0 (load m s.unread), { s with r := 0, w := s.w - s.r }) else (m, s)

/-- `fill`: the loop of `b.rd.Read(b.buf[b.w:])`. -/
def fillLoop : Nat → Mem → MBuf → Mem × MBuf
  | 0, m, s => (m, { s with err := some .noProgress })
  | tries + 1, m, s =>
    match transportRead (s.size m - s.w) s.chunks with
    | none => (m, { s with err := some .eof })
    | some (d, cs) =>
      let m' := store m s.arr s.w d
      let s' := { s with w := s.w + d.length, chunks := cs }
      if d.length > 0 then (m', s') else fillLoop tries m' s'

/-- `(*bufio.Reader).fill`. -/
def fill (m : Mem) (s : MBuf) : Mem × MBuf := fillLoop 100 (slide m s).1 (slide m s).2

/-- Result of `ReadSlice`: the line or the full buffer (both pieces of `b.buf`), or an error. -/
inductive SliceRes
  | line (l : Ref) (s : MBuf)
  | full (l : Ref) (s : MBuf)
  | err (e : IoErr)

/-- `(*bufio.Reader).ReadSlice(delim)`. -/
def readSlice (d : UInt8) : Nat → Mem → MBuf → Mem × SliceRes
  | 0, m, _ => (m, .err .eof)
  | fuel + 1, m, s =>
    match indexByte d (load m s.unread) with
    | some i => (m, .line ⟨s.arr, s.r, i + 1⟩ { s with r := s.r + (i + 1) })
    | none =>
      match s.err with
      | some e => (m, .err e)
      | none =>
        if s.w - s.r ≥ s.size m then (m, .full ⟨s.arr, 0, s.size m⟩ { s with r := s.w })
        else readSlice d fuel (fill m s).1 (fill m s).2

/-- `(*bufio.Reader).collectFragments`: full buffers are copied (`bytes.Clone`), the last fragment is a piece of the
buffer. -/
def collect (d : UInt8) : Nat → List Ref → Mem → MBuf → Mem × Except IoErr (List Ref × Ref × MBuf)
  | 0, _, m, _ => (m, .error .eof)
  | fuel + 1, parts, m, s =>
    match readSlice d (s.fuel m) m s with
    | (m, .line l s) => (m, .ok (parts, l, s))
    | (m, .full l s) => collect d fuel (parts ++ [fresh m (load m l)]) (alloc m (load m l)) s
    | (m, .err e) => (m, .error e)

/-- `(*bufio.Reader).ReadBytes(delim)`: all fragments copied into a new array. -/
def bufReadBytes (d : UInt8) (m : Mem) (s : MBuf) : Mem × Except IoErr (Ref × MBuf) :=
  match collect d (s.fuel m) [] m s with
  | (m, .error e) => (m, .error e)
  | (m, .ok (parts, last, s)) =>
    let d := (parts.map (load m)).flatten ++ load m last
    (alloc m d, .ok (fresh m d, s))

/-- `(*bufio.Reader).Read(p)` with `len(p) > 0`: the number of bytes and the reader. -/
def bufRead (p : Ref) (m : Mem) (s : MBuf) : Mem × Except IoErr (Nat × MBuf) :=
  if s.r = s.w then
    match s.err with
    | some e => (m, .error e)
    | none =>
      if p.len ≥ s.size m then
        match transportRead p.len s.chunks with
        | none => (m, .error .eof)
        | some (d, cs) => (store m p.arr p.off d, .ok (d.length, { s with chunks := cs }))
      else
        match transportRead (s.size m) s.chunks with
        | none => (m, .error .eof)
        | some (d, cs) =>
          if d.length = 0 then (m, .ok (0, { s with r := 0, w := 0, chunks := cs }))
          else
            let m' := store m s.arr 0 d
            let x := load m' ⟨s.arr, 0, min p.len d.length⟩
            (store m' p.arr p.off x, .ok (x.length, { s with r := x.length, w := d.length, chunks := cs }))
  else
    let x := load m ⟨s.arr, s.r, min p.len (s.w - s.r)⟩
    (store m p.arr p.off x, .ok (x.length, { s with r := s.r + x.length }))

/-- `(*bufio.Reader).ReadByte`. -/
def bufReadByte : Nat → Mem → MBuf → Mem × Except IoErr (UInt8 × MBuf)
  | 0, m, _ => (m, .error .eof)
  | fuel + 1, m, s =>
    match load m s.unread with
    | b :: _ => (m, .ok (b, { s with r := s.r + 1 }))
    | [] =>
      match s.err with
      | some e => (m, .error e)
      | none => bufReadByte fuel (fill m s).1 (fill m s).2

/-- Stripping of CR-LF or LF in `readLine` (`frame/reader.go:149-154`): a shorter slice of the same array. -/
def stripEol (m : Mem) (l : Ref) : Ref :=
  if [13, 10].isSuffixOf (load m l) then { l with len := l.len - 2 }
  else if [10].isSuffixOf (load m l) then { l with len := l.len - 1 }
  else l

/-- `(*Reader).readLine` (`frame/reader.go:143-157`). -/
def readLine (m : Mem) (s : MBuf) : Mem × Except CErr (Ref × MBuf) :=
  match bufReadBytes 10 m s with
  | (m, .error e) => (m, .error e.toC)
  | (m, .ok (line, s)) => (m, .ok (stripEol m line, s))

/-- `unencodeValue` (`frame/encode.go:31-34`) on the string that `bytesToString` (`frame/encode.go:24-27`) makes of the
slice, which is the same reference. With `keeps` a string in which nothing is replaced is returned as it is. -/
def unencode (keeps : Bool) (m : Mem) (b : Ref) : Mem × Ref :=
  if keeps && unencodeValue (load m b) == load m b then (m, b)
  else (alloc m (unencodeValue (load m b)), fresh m (unencodeValue (load m b)))

/-- The body of the header loop (`frame/reader.go:86-103`): name and value, or `none` for `ErrInvalidFrameFormat`. -/
def parseHeaderLine (keeps : Bool) (m : Mem) (line : Ref) : Mem × Option (Ref × Ref) :=
  match indexByte 58 (load m line) with
  | none => (m, none)
  | some 0 => (m, none)
  | some (i + 1) =>
    let n := unencode keeps m ⟨line.arr, line.off, i + 1⟩
    let v := unencode keeps n.1 ⟨line.arr, line.off + (i + 2), line.len - (i + 2)⟩
    (v.1, some (n.2, v.2))

/-- The header loop (`frame/reader.go:75-104`). -/
def readHeaders (keeps : Bool) : Nat → Mem → MBuf → List (Ref × Ref) →
    Mem × Except CErr (List (Ref × Ref) × MBuf)
  | 0, m, _, _ => (m, .error (.read .eof))
  | fuel + 1, m, s, h =>
    match readLine m s with
    | (m, .error e) => (m, .error e)
    | (m, .ok (line, s)) =>
      if line.len = 0 then (m, .ok (h, s))
      else match parseHeaderLine keeps m line with
        | (m, none) => (m, .error (.read .invalidFrameFormat))
        | (m, some kv) => readHeaders keeps fuel m s (h ++ [kv])

/-- The header as values. -/
def loadHeader (m : Mem) (h : List (Ref × Ref)) : Header := h.map (fun kv => (load m kv.1, load m kv.2))

/-- The body loop (`frame/reader.go:113-119`): `got` is `bytesRead`, `p` is `f.Body`. -/
def bodyLoop : Nat → Nat → Ref → Mem → MBuf → Mem × Except IoErr MBuf
  | 0, _, _, m, _ => (m, .error .eof)
  | fuel + 1, got, p, m, s =>
    if p.len - got = 0 then (m, .ok s)
    else match bufRead ⟨p.arr, p.off + got, p.len - got⟩ m s with
      | (m, .error e) => (m, .error e)
      | (m, .ok (n, s)) => bodyLoop fuel (got + n) p m s

/-- Body and terminator (`frame/reader.go:106-136`). -/
def readBody (h : List (Ref × Ref)) (m : Mem) (s : MBuf) : Mem × Except CErr (Ref × MBuf) :=
  match (loadHeader m h).contentLength with
  | some none => (m, .error (.read .badContentLength))
  | some (some n) =>
    let zero : Bytes := List.replicate n 0
    match bodyLoop (s.fuel m + 1) 0 (fresh m zero) (alloc m zero) s with
    | (m', .error e) => (m', .error e.toC)
    | (m', .ok s) =>
      match bufReadByte (s.fuel m') m' s with
      | (m', .error e) => (m', .error e.toC)
      | (m', .ok (t, s)) =>
        if t ≠ 0 then (m', .error (.read .invalidFrameFormat)) else (m', .ok (fresh m zero, s))
  | none =>
    match bufReadBytes 0 m s with
    | (m, .error e) => (m, .error e.toC)
    | (m, .ok (body, s)) => (m, .ok ({ body with len := body.len - 1 }, s))

/-- A `frame.Frame` (`frame/frame.go:9-13`) in memory. -/
structure MFrame where
  command : Ref
  header : List (Ref × Ref)
  body : Ref
  deriving DecidableEq, Repr

/-- The frame a reader of the memory sees now. -/
def MFrame.value (m : Mem) (f : MFrame) : Frame :=
  { command := load m f.command, header := loadHeader m f.header, body := load m f.body }

/-- Result of one `Reader.Read`. -/
inductive Res
  | frame (f : MFrame) (s : MBuf)
  | heartbeat (s : MBuf)
  | err (e : CErr)

/-- `(*Reader).Read` (`frame/reader.go:47-140`). `string(commandSlice)` is a copy. -/
def readFrame (keeps : Bool) (m : Mem) (s : MBuf) : Mem × Res :=
  match readLine m s with
  | (m, .error e) => (m, .err e)
  | (m, .ok (line, s)) =>
    if line.len = 0 then (m, .heartbeat s)
    else
      let cmd := load m line
      let command := fresh m cmd
      let m := alloc m cmd
      if cmd ∉ validCommands then (m, .err (.read .invalidCommand))
      else match readHeaders keeps (s.fuel m) m s [] with
        | (m, .error e) => (m, .err e)
        | (m, .ok (h, s)) =>
          match readBody h m s with
          | (m, .error e) => (m, .err e)
          | (m, .ok (body, s)) => (m, .frame { command, header := h, body } s)

/-! ## A program with readers -/

/-- A reader of the program: made by `NewReaderSize` with `size` on a transport that delivers `source`; `none` after an
error; the results of `Read` so far (`none` is a heart-beat). -/
structure Rd where
  size : Nat
  source : List Bytes
  buf : Option MBuf
  got : List (Option MFrame)
  deriving DecidableEq, Repr

structure World where
  mem : Mem
  readers : List Rd
  deriving DecidableEq, Repr

/-- What a program does. -/
inductive Op
  /-- `NewReaderSize(transport, n)` -/
  | newReader (n : Nat) (source : List Bytes)
  /-- `Read` of reader `i` -/
  | read (i : Nat)
  /-- `f.Body[p] = x` for the `j`-th result `f` of reader `i` -/
  | poke (i j p : Nat) (x : UInt8)
  /-- `append(f.Body, d...)` for the `j`-th result `f` of reader `i` -/
  | append (i j : Nat) (d : Bytes)
  /-- any array of the program's own -/
  | make (d : Bytes)
  deriving DecidableEq, Repr

/-- The `j`-th result of reader `i`, if it is a frame. -/
def World.frame (w : World) (i j : Nat) : Option MFrame := (w.readers[i]?.bind (fun r => r.got[j]?)).join

/-- One operation; `none`: not possible (a panic, or a reader after its error). `NewReaderSize`
(`frame/reader.go:41-43`) allocates a buffer of at least 16 bytes. `append` writes behind the slice if the array goes
on there, else it copies. -/
def step (keeps : Bool) (w : World) : Op → Option World
  | .newReader n source =>
    some { mem := alloc w.mem (List.replicate (max n 16) 0)
           readers := w.readers ++
             [{ size := n, source, buf := some ⟨w.mem.length, 0, 0, none, source⟩, got := [] }] }
  | .read i =>
    match w.readers[i]? with
    | none => none
    | some r =>
      match r.buf with
      | none => none
      | some s =>
        match readFrame keeps w.mem s with
        | (m, .frame f s) =>
          some { mem := m, readers := w.readers.set i { r with buf := some s, got := r.got ++ [some f] } }
        | (m, .heartbeat s) =>
          some { mem := m, readers := w.readers.set i { r with buf := some s, got := r.got ++ [none] } }
        | (m, .err _) => some { mem := m, readers := w.readers.set i { r with buf := none } }
  | .poke i j p x =>
    match w.frame i j with
    | none => none
    | some f =>
      if p < f.body.len then some { w with mem := store w.mem f.body.arr (f.body.off + p) [x] } else none
  | .append i j d =>
    match w.frame i j with
    | none => none
    | some f =>
      if f.body.off + f.body.len + d.length ≤ (w.mem.getD f.body.arr []).length then
        some { w with mem := store w.mem f.body.arr (f.body.off + f.body.len) d }
      else some { w with mem := alloc w.mem (load w.mem f.body ++ d) }
  | .make d => some { w with mem := alloc w.mem d }

/-- A run of the program. -/
def run (keeps : Bool) : World → List Op → Option World
  | w, [] => some w
  | w, op :: ops =>
    match step keeps w op with
    | none => none
    | some w' => run keeps w' ops

/-- Before the program has done anything. -/
def World.init : World := ⟨[], []⟩

end Stomp.Mem
