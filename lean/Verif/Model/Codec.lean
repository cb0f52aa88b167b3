import Verif.Model.Frame
/-!
# Reading and writing frames: `frame/encode.go`, `frame/writer.go`, `frame/reader.go`
-/
namespace Stomp

/-- `replacerForEncodeValue` (`frame/encode.go:9-14`): `\` ↦ `\\`, CR ↦ `\r`, LF ↦ `\n`, `:` ↦ `\c`. -/
def encodeTable : List (Bytes × Bytes) :=
  [([92], [92, 92]), ([13], [92, 114]), ([10], [92, 110]), ([58], [92, 99])]

/-- `replacerForUnencodeValue` (`frame/encode.go:15-20`). -/
def unencodeTable : List (Bytes × Bytes) :=
  [([92, 114], [13]), ([92, 110], [10]), ([92, 99], [58]), ([92, 92], [92])]

/-- Encoding of a header name or value as used in `frame/writer.go:56,64`. -/
def encodeValue (s : Bytes) : Bytes := replacer encodeTable 0 s

/-- `unencodeValue` (`frame/encode.go:31-34`). It never returns an error. -/
def unencodeValue (s : Bytes) : Bytes := replacer unencodeTable 0 s

/-! ## Writer -/

/-- The header loop of `Writer.Write` (`frame/writer.go:53-72`). -/
def writeHeaders : Header → Bytes
  | [] => []
  | (k, v) :: rest => encodeValue k ++ [58] ++ encodeValue v ++ [10] ++ writeHeaders rest

/-- The bytes produced by `Writer.Write` (`frame/writer.go:31-100`) when the underlying writes succeed;
`none` is the nil frame (heart-beat). Write errors and partial output are modelled in
`Model/BufioWriter.lean`. -/
def writeFrame : Option Frame → Bytes
  | none => [10]
  | some f =>
    f.command ++ [10] ++ writeHeaders f.header ++ [10]
      ++ (if f.body.length > 0 then f.body else []) ++ [0]

/-! ## Reader (on a flat input; chunked input is in `Model/Bufio.lean`) -/

/-- Errors `Reader.Read` can return: `io.EOF`, `ErrInvalidCommand`, `ErrInvalidFrameFormat`
(`frame/reader.go:18-21`) and the error of `ContentLength` (`frame/reader.go:107-109`). -/
inductive ReadErr | eof | invalidCommand | invalidFrameFormat | badContentLength
  deriving DecidableEq, Repr

/-- Result of one `Reader.Read`; `rest` is the unread input. After an error no caller reads on
(`conn.go:293-296`, `server/client/conn.go:129-142`), so no rest is kept. -/
inductive ReadRes
  | frame (f : Frame) (rest : Bytes)
  | heartbeat (rest : Bytes)
  | err (e : ReadErr)
  deriving DecidableEq, Repr

/-- `bufio.Reader.ReadBytes(delim)`: the data up to and including the delimiter, and the rest; `none` is
`io.EOF` (no delimiter before the end of input). -/
def readBytes (d : UInt8) : Bytes → Option (Bytes × Bytes)
  | [] => none
  | b :: bs =>
    if b = d then some ([b], bs)
    else match readBytes d bs with
      | none => none
      | some (l, r) => some (b :: l, r)

/-- Stripping of CR-LF or LF in `readLine` (`frame/reader.go:149-154`). -/
def stripEol (line : Bytes) : Bytes :=
  if [13, 10].isSuffixOf line then line.take (line.length - 2)
  else if [10].isSuffixOf line then line.take (line.length - 1)
  else line

/-- `(*Reader).readLine` (`frame/reader.go:143-157`). -/
def readLine (inp : Bytes) : Option (Bytes × Bytes) :=
  match readBytes 10 inp with
  | none => none
  | some (line, rest) => some (stripEol line, rest)

/-- The commands accepted by `Reader.Read` (`frame/reader.go:65-68`). -/
def validCommands : List Bytes :=
  [Cmd.connect, Cmd.stomp, Cmd.send, Cmd.subscribe, Cmd.unsubscribe, Cmd.ack, Cmd.nack, Cmd.begin_,
   Cmd.commit, Cmd.abort, Cmd.disconnect, Cmd.connected, Cmd.message, Cmd.receipt, Cmd.error]

/-- One header line (`frame/reader.go:86-103`): `index <= 0` is an error; otherwise name and value are
unencoded. -/
def parseHeaderLine (line : Bytes) : Option (Bytes × Bytes) :=
  match indexByte 58 line with
  | none => none
  | some 0 => none
  | some (i + 1) => some (unencodeValue (line.take (i + 1)), unencodeValue (line.drop (i + 2)))

/-- The header loop (`frame/reader.go:75-104`). `fuel` bounds the iterations; each iteration consumes at
least one byte, so `fuel = length of input + 1` is never exhausted (`Proofs/Codec`). -/
def readHeaders : Nat → Bytes → Header → Except ReadErr (Header × Bytes)
  | 0, _, _ => .error .eof
  | fuel + 1, inp, h =>
    match readLine inp with
    | none => .error .eof
    | some (line, rest) =>
      if line.length = 0 then .ok (h, rest)
      else match parseHeaderLine line with
        | none => .error .invalidFrameFormat
        | some (k, v) => readHeaders fuel rest (h.add k v)

/-- Body and terminator (`frame/reader.go:106-136`). The content-length loop reads exactly
`contentLength` bytes or fails with EOF. -/
def readBody (h : Header) (inp : Bytes) : Except ReadErr (Bytes × Bytes) :=
  match h.contentLength with
  | some none => .error .badContentLength
  | some (some n) =>
    if inp.length < n then .error .eof
    else match inp.drop n with
      | [] => .error .eof
      | t :: rest => if t ≠ 0 then .error .invalidFrameFormat else .ok (inp.take n, rest)
  | none =>
    match readBytes 0 inp with
    | none => .error .eof
    | some (body, rest) => .ok (body.take (body.length - 1), rest)

/-- `(*Reader).Read` (`frame/reader.go:47-140`). -/
def readFrame (inp : Bytes) : ReadRes :=
  match readLine inp with
  | none => .err .eof
  | some (cmd, rest) =>
    if cmd.length = 0 then .heartbeat rest
    else if cmd ∉ validCommands then .err .invalidCommand
    else match readHeaders (rest.length + 1) rest [] with
      | .error e => .err e
      | .ok (h, rest) =>
        match readBody h rest with
        | .error e => .err e
        | .ok (body, rest) => .frame { command := cmd, header := h, body } rest

/-- Calling `Read` until the first error (`conn.go:290-302` and `server/client/conn.go:117-183`,
without the channel): the frames (`none` for a heart-beat) and the final error. `fuel` bounds the number
of calls; each successful call consumes at least one byte. -/
def readAllAux : Nat → Bytes → List (Option Frame) × ReadErr
  | 0, _ => ([], .eof)
  | fuel + 1, inp =>
    match readFrame inp with
    | .err e => ([], e)
    | .heartbeat rest => let (fs, e) := readAllAux fuel rest; (none :: fs, e)
    | .frame f rest => let (fs, e) := readAllAux fuel rest; (some f :: fs, e)

def readAll (inp : Bytes) : List (Option Frame) × ReadErr := readAllAux (inp.length + 1) inp

end Stomp
