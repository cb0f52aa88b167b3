import Verif.Model.Client.Options
/-!
# Frames built by the client API: `conn.go`, `send_options.go`, `subscribe_options.go`, `id.go`, `ack.go`
-/
namespace Stomp.Client
open Stomp

/-- `_lastId` and `allocateId` (`id.go:8-17`): atomic increment of a `uint64`, decimal text. The state is the
counter's value before the call. -/
def allocateId (last : Nat) : Nat × Bytes :=
  let n := (last + 1) % 2 ^ 64
  (n, fmtUint n)

/-- Values for the `opts` argument of `Send` (`send_options.go:28-55`): a nil option, the three library
options, and a user-supplied option that fails (`fail`). Other user-supplied functions can make any frame and
are outside the properties. -/
inductive SendOpt
  | nilOpt
  | receipt
  | noContentLength
  | header (key value : Bytes)
  | fail
  deriving DecidableEq, Repr

/-- One option applied to a frame (`send_options.go:29-54`); the counter is threaded for `allocateId`.
`none` is a returned error. The command check is kept although `createSendFrame` only makes SEND frames. -/
def applySendOpt (last : Nat) (f : Frame) : SendOpt → Option (Nat × Frame)
  | .nilOpt => some (last, f)
  | .receipt =>
    if f.command ≠ Cmd.send then none
    else let (last, id) := allocateId last; some (last, { f with header := f.header.set Hdr.receipt id })
  | .noContentLength =>
    if f.command ≠ Cmd.send then none
    else some (last, { f with header := f.header.del Hdr.contentLength })
  | .header k v =>
    if f.command ≠ Cmd.send then none else some (last, { f with header := f.header.add k v })
  | .fail => none

/-- The option loop of `createSendFrame` (`conn.go:622-629`). On an error the counter increments made so far
are not returned: those ids are never used. -/
def applySendOpts (last : Nat) (f : Frame) : List SendOpt → Option (Nat × Frame)
  | [] => some (last, f)
  | o :: os =>
    match applySendOpt last f o with
    | none => none
    | some (last, f) => applySendOpts last f os

/-- `createSendFrame` (`conn.go:612-632`). Simplification: when an option fails, ids that `SendOpt.Receipt` has taken before are not
counted as taken (in the code they are lost). -/
def createSendFrame (last : Nat) (dest ctype body : Bytes) (opts : List SendOpt) : Option (Nat × Frame) :=
  let f := Frame.new Cmd.send [(Hdr.contentLength, fmtUint body.length)]
  let f := { f with body := body }
  let f := { f with header := f.header.set Hdr.destination dest }
  let f := if ctype ≠ [] then { f with header := f.header.set Hdr.contentType ctype } else f
  applySendOpts last f opts

/-- `AckMode` (`ack.go:12-48`). Only the three constants: any other value panics in `Subscribe`
(`ack.go:21`) before a subscription exists. -/
inductive AckMode | auto | client | clientIndividual
  deriving DecidableEq, Repr

/-- `AckMode.String` (`ack.go:12-22`). -/
def AckMode.str : AckMode → Bytes
  | .auto => ackAuto
  | .client => ackClient
  | .clientIndividual => ackClientIndividual

/-- What `createAckNackFrame` looks at in a `*Subscription` (`subscription.go:43-56`). -/
structure SubInfo where
  id : Bytes
  ackMode : AckMode
  deriving DecidableEq, Repr

/-- What `createAckNackFrame` looks at in a `*Message` (`message.go:13-39`); `none` is nil. -/
structure MsgInfo where
  header : Option Header
  subscription : Option SubInfo
  hasConn : Bool
  deriving DecidableEq, Repr

/-- Errors of the ACK/NACK path (`errors.go:8-24`). -/
inductive AckErr
  | nackNotSupported | notReceivedMessage | cannotNackAutoSub | missingHeader (name : Bytes)
  deriving DecidableEq, Repr

/-- `(*Conn).createAckNackFrame` (`conn.go:813-859`); `.ok none` is a nil frame. -/
def createAckNackFrame (version : Bytes) (msg : MsgInfo) (ack : Bool) : Except AckErr (Option Frame) :=
  if !ack && !supportsNack version then .error .nackNotSupported
  else
    match msg.header, msg.subscription, msg.hasConn with
    | some h, some sub, true =>
      if sub.ackMode = .auto then
        if ack then .ok none else .error .cannotNackAutoSub
      else
        let f := Frame.new (if ack then Cmd.ack else Cmd.nack) []
        if version = V10 ∨ version = V11 then
          let f := { f with header := f.header.add Hdr.subscription sub.id }
          match h.contains Hdr.messageId with
          | some mid => .ok (some { f with header := f.header.add Hdr.messageId mid })
          | none => .error (.missingHeader Hdr.messageId)
        else if version = V12 then
          match h.contains Hdr.ack with
          | some a => .ok (some { f with header := f.header.add Hdr.id a })
          | none => .error (.missingHeader Hdr.ack)
        else .ok (some f)
    | _, _, _ => .error .notReceivedMessage

/-- Option values for `Subscribe`/`Unsubscribe` (`subscribe_options.go:21-42`). -/
inductive SubOpt
  | nilOpt
  | id (id : Bytes)
  | header (key value : Bytes)
  | fail
  deriving DecidableEq, Repr

/-- One `SubscribeOpt` applied (`subscribe_options.go:22-41`); `none` is a returned error. -/
def applySubOpt (f : Frame) : SubOpt → Option Frame
  | .nilOpt => some f
  | .id i => if f.command ≠ Cmd.subscribe then none else some { f with header := f.header.set Hdr.id i }
  | .header k v =>
    if f.command ≠ Cmd.subscribe ∧ f.command ≠ Cmd.unsubscribe then none
    else some { f with header := f.header.add k v }
  | .fail => none

/-- The option loop of `Subscribe` (`conn.go:711-719`). -/
def applySubOpts (f : Frame) : List SubOpt → Option Frame
  | [] => some f
  | o :: os =>
    match applySubOpt f o with
    | none => none
    | some f => applySubOpts f os

/-- The SUBSCRIBE frame of `Subscribe` (`conn.go:707-733`): counter, frame, subscription id and whether a
reply-to header was given. -/
def createSubscribeFrame (last : Nat) (dest : Bytes) (ack : AckMode) (opts : List SubOpt) :
    Option (Nat × Frame × Bytes × Bool) :=
  let f := Frame.new Cmd.subscribe [(Hdr.destination, dest), (Hdr.ack, ack.str)]
  match applySubOpts f opts with
  | none => none
  | some f =>
    let rt := f.header.contains Hdr.replyTo
    let f := match rt with
      | some r => { f with header := f.header.set Hdr.id r }
      | none => f
    match f.header.contains Hdr.id with
    | some id => some (last, f, id, rt.isSome)
    | none =>
      let (last, id) := allocateId last
      some (last, { f with header := f.header.add Hdr.id id }, id, rt.isSome)

/-- The option loop of `Unsubscribe` (`subscription.go:73-81`): unlike in `Subscribe`, a nil option is an
error. -/
def applyUnsubOpts (f : Frame) : List SubOpt → Option Frame
  | [] => some f
  | .nilOpt :: _ => none
  | o :: os =>
    match applySubOpt f o with
    | none => none
    | some f => applyUnsubOpts f os

/-- The UNSUBSCRIBE frame (`subscription.go:71-85`). -/
def createUnsubscribeFrame (id : Bytes) (replyToSet : Bool) (opts : List SubOpt) : Option Frame :=
  match applyUnsubOpts (Frame.new Cmd.unsubscribe [(Hdr.id, id)]) opts with
  | none => none
  | some f => some (if replyToSet then { f with header := f.header.set Hdr.replyTo id } else f)

end Stomp.Client
