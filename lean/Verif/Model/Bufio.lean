import Verif.Model.Codec
/-!
# The buffered, chunked reader underneath `frame.Reader`

`frame.Reader` (`frame/reader.go:28-43`) reads through a `bufio.Reader` of a given size. This file models
the operations of Go's `bufio.Reader` that `frame.Reader` uses (`ReadBytes`, `Read`, `ReadByte`, and the
`fill` they share) over a transport that hands out bytes in arbitrary chunks, and repeats the control flow of
`frame/reader.go:47-157` on top of them.

Simplification: a transport `Read` returns data or an error, not both (true of `net.Conn`); the only
transport error is end of stream. A buffer position pair `r, w` is represented by the unread bytes
`buf[r:w]`, because `fill` always slides them to the front before reading (`Model/Memory` has the positions and the array).
-/
namespace Stomp

/-- Errors at the byte level: `io.EOF` and `io.ErrNoProgress` (100 consecutive empty reads). -/
inductive IoErr | eof | noProgress
  deriving DecidableEq, Repr

/-- State of a `bufio.Reader` and its transport. `chunks` is what the transport's `Read` calls will find:
each call takes from the first chunk; an empty chunk is a `(0, nil)` read; no chunks left is `io.EOF`. -/
structure BR where
  cap : Nat
  buf : Bytes
  err : Option IoErr
  chunks : List Bytes
  deriving DecidableEq, Repr

/-- One `Read(p)` with `len(p) = n` on the transport: `none` is `io.EOF`. What does not fit stays. -/
def transportRead (n : Nat) : List Bytes → Option (Bytes × List Bytes)
  | [] => none
  | c :: cs => some (c.take n, if c.length ≤ n then cs else c.drop n :: cs)

/-- The loop of `(*bufio.Reader).fill`: at most `tries` reads, until data or an error arrives. -/
def fillLoop : Nat → BR → BR
  | 0, s => { s with err := some .noProgress }
  | tries + 1, s =>
    match transportRead (s.cap - s.buf.length) s.chunks with
    | none => { s with err := some .eof }
    | some (d, cs) =>
      let s' := { s with buf := s.buf ++ d, chunks := cs }
      if d.length > 0 then s' else fillLoop tries s'

/-- `(*bufio.Reader).fill`, with `maxConsecutiveEmptyReads = 100`. -/
def fill (s : BR) : BR := fillLoop 100 s

/-- Result of `ReadSlice`: a complete line, a full buffer without delimiter, or an error. -/
inductive SliceRes
  | line (l : Bytes) (s : BR)
  | full (l : Bytes) (s : BR)
  | err (e : IoErr)

/-- `(*bufio.Reader).ReadSlice(delim)`. `fuel` bounds the loop (see `BR.fuel`). -/
def readSlice (d : UInt8) : Nat → BR → SliceRes
  | 0, _ => .err .eof
  | fuel + 1, s =>
    match readBytes d s.buf with
    | some (l, r) => .line l { s with buf := r }
    | none =>
      match s.err with
      | some e => .err e
      | none =>
        if s.buf.length ≥ s.cap then .full s.buf { s with buf := [] }
        else readSlice d fuel (fill s)

/-- Bytes the transport and the buffer still hold, plus the number of chunks, plus a constant: a bound for
every loop in this file. -/
def BR.fuel (s : BR) : Nat := s.buf.length + (s.chunks.map (fun c => c.length + 1)).sum + 2

/-- `(*bufio.Reader).ReadBytes(delim)` (`collectFragments`): repeat `ReadSlice` while the buffer is full. -/
def bufReadBytes (d : UInt8) : Nat → Bytes → BR → Except IoErr (Bytes × BR)
  | 0, _, _ => .error .eof
  | fuel + 1, acc, s =>
    match readSlice d s.fuel s with
    | .line l s' => .ok (acc ++ l, s')
    | .full l s' => bufReadBytes d fuel (acc ++ l) s'
    | .err e => .error e

/-- `(*bufio.Reader).Read(p)` with `len(p) = n > 0`: from the buffer if it holds anything, directly from the
transport if `n ≥ cap`, otherwise after one read into the buffer. -/
def bufRead (n : Nat) (s : BR) : Except IoErr (Bytes × BR) :=
  if s.buf.length = 0 then
    match s.err with
    | some e => .error e
    | none =>
      if n ≥ s.cap then
        match transportRead n s.chunks with
        | none => .error .eof
        | some (d, cs) => .ok (d, { s with chunks := cs })
      else
        match transportRead s.cap s.chunks with
        | none => .error .eof
        | some (d, cs) =>
          if d.length = 0 then .ok ([], { s with chunks := cs })
          else .ok (d.take n, { s with buf := d.drop n, chunks := cs })
  else .ok (s.buf.take n, { s with buf := s.buf.drop n })

/-- `(*bufio.Reader).ReadByte`. -/
def bufReadByte : Nat → BR → Except IoErr (UInt8 × BR)
  | 0, _ => .error .eof
  | fuel + 1, s =>
    match s.buf with
    | b :: bs => .ok (b, { s with buf := bs })
    | [] =>
      match s.err with
      | some e => .error e
      | none => bufReadByte fuel (fill s)

/-- Error of a chunked read: one of `ReadErr`, or the transport made no progress. -/
inductive CErr | read (e : ReadErr) | noProgress
  deriving DecidableEq, Repr

def IoErr.toC : IoErr → CErr
  | .eof => .read .eof
  | .noProgress => .noProgress

/-- Result of one `Reader.Read` on a chunked transport. -/
inductive CRes
  | frame (f : Frame) (s : BR)
  | heartbeat (s : BR)
  | err (e : CErr)

/-- `(*Reader).readLine` (`frame/reader.go:143-157`). -/
def cReadLine (s : BR) : Except CErr (Bytes × BR) :=
  match bufReadBytes 10 s.fuel [] s with
  | .error e => .error e.toC
  | .ok (line, s) => .ok (stripEol line, s)

/-- Header loop (`frame/reader.go:75-104`). -/
def cReadHeaders : Nat → BR → Header → Except CErr (Header × BR)
  | 0, _, _ => .error (.read .eof)
  | fuel + 1, s, h =>
    match cReadLine s with
    | .error e => .error e
    | .ok (line, s) =>
      if line.length = 0 then .ok (h, s)
      else match parseHeaderLine line with
        | none => .error (.read .invalidFrameFormat)
        | some (k, v) => cReadHeaders fuel s (h.add k v)

/-- The body loop (`frame/reader.go:113-119`): `want` is `contentLength - bytesRead`. -/
def cBodyLoop : Nat → Nat → Bytes → BR → Except IoErr (Bytes × BR)
  | 0, _, _, _ => .error .eof
  | fuel + 1, want, acc, s =>
    if want = 0 then .ok (acc, s)
    else match bufRead want s with
      | .error e => .error e
      | .ok (d, s) => cBodyLoop fuel (want - d.length) (acc ++ d) s

/-- Body and terminator (`frame/reader.go:106-136`). -/
def cReadBody (h : Header) (s : BR) : Except CErr (Bytes × BR) :=
  match h.contentLength with
  | some none => .error (.read .badContentLength)
  | some (some n) =>
    match cBodyLoop (s.fuel + 1) n [] s with
    | .error e => .error e.toC
    | .ok (body, s) =>
      match bufReadByte s.fuel s with
      | .error e => .error e.toC
      | .ok (t, s) => if t ≠ 0 then .error (.read .invalidFrameFormat) else .ok (body, s)
  | none =>
    match bufReadBytes 0 s.fuel [] s with
    | .error e => .error e.toC
    | .ok (body, s) => .ok (body.take (body.length - 1), s)

/-- `(*Reader).Read` (`frame/reader.go:47-140`) on a buffered, chunked transport. -/
def cReadFrame (s : BR) : CRes :=
  match cReadLine s with
  | .error e => .err e
  | .ok (cmd, s) =>
    if cmd.length = 0 then .heartbeat s
    else if cmd ∉ validCommands then .err (.read .invalidCommand)
    else match cReadHeaders s.fuel s [] with
      | .error e => .err e
      | .ok (h, s) =>
        match cReadBody h s with
        | .error e => .err e
        | .ok (body, s) => .frame { command := cmd, header := h, body } s

/-- Repeated `Read` until the first error. -/
def cReadAllAux : Nat → BR → List (Option Frame) × CErr
  | 0, _ => ([], .read .eof)
  | fuel + 1, s =>
    match cReadFrame s with
    | .err e => ([], e)
    | .heartbeat s => let (fs, e) := cReadAllAux fuel s; (none :: fs, e)
    | .frame f s => let (fs, e) := cReadAllAux fuel s; (some f :: fs, e)

/-- `NewReaderSize(transport, n)` (`frame/reader.go:41-43`); `bufio.NewReaderSize` raises the size to at
least 16. -/
def newReaderSize (n : Nat) (chunks : List Bytes) : BR :=
  { cap := max n 16, buf := [], err := none, chunks }

/-- All results of a reader of buffer size `n` on a chunked transport. -/
def cReadAll (n : Nat) (chunks : List Bytes) : List (Option Frame) × CErr :=
  cReadAllAux (newReaderSize n chunks).fuel (newReaderSize n chunks)

end Stomp
