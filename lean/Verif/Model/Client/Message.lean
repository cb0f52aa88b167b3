import Verif.Model.Client.Frames
/-! # `Message` (`message.go`) -/
namespace Stomp.Client
open Stomp

/-- The data in a `*Message` made from a MESSAGE frame (`message.go:13-39`). The pointers to connection and subscription, and `Err`, which is nil
for these, are left out. -/
structure Message where
  destination : Bytes
  contentType : Bytes
  header : Header
  body : Bytes
  deriving DecidableEq, Repr

/-- The `*Message` that `(*Subscription).readLoop` makes from a MESSAGE frame (`subscription.go:184-195`). -/
def Message.ofFrame (f : Frame) : Message :=
  { destination := f.header.get Hdr.destination, contentType := f.header.get Hdr.contentType, header := f.header, body := f.body }

/-- `(*Message).Read(p)` with `len(p) = n` (`message.go:52-59`): the bytes copied and the remaining body;
`none` is `io.EOF`. -/
def msgRead (body : Bytes) (n : Nat) : Option Bytes × Bytes :=
  if body.length = 0 then (none, body)
  else (some (body.take n), body.drop n)

/-- `(*Message).ReadByte` (`message.go:61-68`); `none` is `io.EOF`. -/
def msgReadByte (body : Bytes) : Option UInt8 × Bytes :=
  match body with
  | [] => (none, [])
  | b :: bs => (some b, bs)

/-- `(*Message).ShouldAck` (`message.go:43-50`). -/
def shouldAck (m : MsgInfo) : Bool :=
  match m.subscription with
  | none => false
  | some s => s.ackMode != .auto

/-- `AckMode.ShouldAck` (`ack.go:27-35`), for the three constants. -/
def AckMode.shouldAck : AckMode → Bool
  | .auto => false
  | .client => true
  | .clientIndividual => true

end Stomp.Client
