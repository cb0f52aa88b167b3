import Verif.Model.Codec
/-!
# The buffered writer underneath `frame.Writer`, on a transport that may fail

`frame.Writer` (`frame/writer.go:16-28`) writes through a `bufio.Writer`. This file models the operations of
Go's `bufio.Writer` that `frame.Writer` uses (`Write`, `WriteString`, `Flush`, with its sticky error) on a
transport where any write may be accepted only in part and then fail, and the sequence of writes that
`(*Writer).Write` (`frame/writer.go:31-100`) issues.
-/
namespace Stomp

/-- State of a `bufio.Writer` and its transport. `wire` is everything the transport accepted. `oracle`
decides the outcome of each transport write: `none` = all bytes accepted; `some k` = at most `k` bytes
accepted and an error returned. An exhausted oracle means success. -/
structure BW where
  cap : Nat
  buf : Bytes
  err : Bool
  wire : Bytes
  oracle : List (Option Nat)
  deriving DecidableEq, Repr

/-- `Write(p)` on the transport: the number of bytes accepted, whether it failed, the new state. A
transport (`net.Conn`) that accepts less than `p` returns an error. -/
def transportWrite (p : Bytes) (s : BW) : Nat × Bool × BW :=
  match s.oracle with
  | [] => (p.length, false, { s with wire := s.wire ++ p })
  | none :: o => (p.length, false, { s with wire := s.wire ++ p, oracle := o })
  | some k :: o => ((p.take k).length, true, { s with wire := s.wire ++ p.take k, oracle := o })

/-- `(*bufio.Writer).Flush`. -/
def bwFlush (s : BW) : BW :=
  if s.err then s
  else if s.buf.length = 0 then s
  else
    match transportWrite s.buf s with
    | (n, true, s') => { s' with buf := s.buf.drop n, err := true }
    | (_, false, s') => { s' with buf := [] }

/-- `(*bufio.Writer).Write` (`direct = true`) and `WriteString` (`direct = false`: the transport is not an
`io.StringWriter`). `fuel` bounds the loop. -/
def bwWrite (direct : Bool) : Nat → Bytes → BW → BW
  | 0, _, s => s
  | fuel + 1, p, s =>
    if p.length > s.cap - s.buf.length ∧ s.err = false then
      if direct ∧ s.buf.length = 0 then
        match transportWrite p s with
        | (n, e, s') => bwWrite direct fuel (p.drop n) { s' with err := e }
      else
        let n := s.cap - s.buf.length
        bwWrite direct fuel (p.drop n) (bwFlush { s with buf := s.buf ++ p.take n })
    else if s.err then s
    else { s with buf := s.buf ++ p }

/-- Replacement of one byte by `replacerForEncodeValue` (`frame/encode.go:9-14`), if any. -/
def encReplacement (b : UInt8) : Option Bytes :=
  (encodeTable.find? (fun e => e.1 == [b])).map (·.2)

/-- The writes issued by `replacerForEncodeValue.WriteString(w, s)` (`frame/writer.go:56,64`): runs of
unchanged bytes with `WriteString`, replacements with `Write`. `run` is the current run. -/
def encPieces (run : Bytes) : Bytes → List (Bool × Bytes)
  | [] => if run.length = 0 then [] else [(false, run)]
  | b :: bs =>
    match encReplacement b with
    | none => encPieces (run ++ [b]) bs
    | some r => (if run.length = 0 then [] else [(false, run)]) ++ [(true, r)] ++ encPieces [] bs

/-- The sequence of writes of `(*Writer).Write` before the flush (`frame/writer.go:31-92`). -/
def framePieces : Option Frame → List (Bool × Bytes)
  | none => [(true, [10])]
  | some f =>
    [(true, f.command), (true, [10])]
      ++ (f.header.map (fun e => encPieces [] e.1 ++ [(true, [58])] ++ encPieces [] e.2 ++ [(true, [10])])).flatten
      ++ [(true, [10])]
      ++ (if f.body.length > 0 then [(true, f.body)] else [])
      ++ [(true, [0])]

/-- Issue writes until one fails (`if err != nil { return err }` after every write). -/
def bwPieces : List (Bool × Bytes) → BW → BW
  | [], s => s
  | (d, p) :: ps, s =>
    let s' := bwWrite d (2 * p.length + 3) p s
    if s'.err then s' else bwPieces ps s'

/-- `(*Writer).Write(f)` (`frame/writer.go:31-100`): new state and whether it returned `nil`. -/
def bwFrame (f : Option Frame) (s : BW) : Bool × BW :=
  let s := bwPieces (framePieces f) s
  if s.err then (false, s)
  else
    let s := bwFlush s
    (!s.err, s)

/-- A sequence of `Write` calls on the same writer, and what each returned. -/
def bwAll : List (Option Frame) → BW → List Bool × BW
  | [], s => ([], s)
  | f :: fs, s =>
    let (ok, s) := bwFrame f s
    let (oks, s) := bwAll fs s
    (ok :: oks, s)

/-- `NewWriterSize(transport, n)` (`frame/writer.go:26-28`); a size `≤ 0` becomes 4096. -/
def newWriterSize (n : Nat) (oracle : List (Option Nat)) : BW :=
  { cap := if n = 0 then 4096 else n, buf := [], err := false, wire := [], oracle }

end Stomp
