import Verif.Model.AMap
import Verif.Model.HeartBeat
import Verif.Model.Codec
import Verif.Model.Client.Options
/-!
# Server data: messages, subscriptions, requests

`server/client/subscription.go`, `server/client/request.go`, `server/client/errors.go`
-/
namespace Stomp.Server
open Stomp

/-- Ghost identity of a message: the connection that sent it and its number among the messages accepted from
that connection. No step of the model looks at it. -/
structure Tag where
  src : Nat
  seq : Nat
  deriving DecidableEq, Repr, Inhabited

/-- A `*frame.Frame` holding a message. Each queue message frame has one owner at a time, so frames are
modelled by value (aliasing of topic frames is treated separately, see `Model/Server/Topic`). -/
structure Msg where
  tag : Tag
  frame : Frame
  deriving DecidableEq, Repr, Inhabited

/-- `Subscription` (`server/client/subscription.go:7-15`). The `conn` field is the connection whose `heap`
the object lives in; `inList` says whether the `subList` pointer is non-nil (only that is ever tested). -/
structure Sub where
  dest : Bytes
  id : Bytes
  ack : Bytes
  msgId : Nat := 0
  inList : Bool := false
  frame : Option Msg := none
  deriving DecidableEq, Repr, Inhabited

/-- `newSubscription` (`server/client/subscription.go:17-24`). -/
def newSubscription (dest id ack : Bytes) : Sub := { dest, id, ack }

/-- A pointer to a subscription: connection and index in its heap. -/
structure SubRef where
  conn : Nat
  idx : Nat
  deriving DecidableEq, Repr, Inhabited

/-- `Request` (`server/client/request.go:14-32`). A requeued frame pointer might be nil. -/
inductive Req
  | subscribe (r : SubRef)
  | unsubscribe (r : SubRef)
  | enqueue (m : Msg)
  | requeue (m : Option Msg)
  | connected (c : Nat)
  | disconnected (c : Nat)
  deriving DecidableEq, Repr, Inhabited

/-- Errors a frame can cause (`server/client/errors.go:3-36`), plus the error of `strconv.ParseUint` and a
failed write. -/
inductive Err
  | notConnected | unexpectedCommand | unknownCommand | receiptInConnect | authenticationFailed
  | txAlreadyInProgress | txUnknown | unsupportedVersion | subscriptionExists | subscriptionNotFound
  | unknownVersion | notConnectFrame | invalidHeartBeat | invalidOperationForFrame
  | missingHeader (name : Bytes)
  | parse (s : Bytes)
  | write
  deriving DecidableEq, Repr

/-- Server configuration (`server/client/config.go`, `server/processor.go:132-158`): the authenticator, the
heart-beat minimum in nanoseconds, and the text of a `strconv.ParseUint` error (not modelled further). -/
structure Config where
  auth : Bytes → Bytes → Bool
  heartBeat : Int
  parseErr : Bytes → Bytes

/-- `err.Error()` (`server/client/errors.go`). The text of a write error is never seen by anyone: the writer
has failed and the ERROR frame is not transmitted. -/
def Err.text (cfg : Config) : Err → Bytes
  | .notConnected => b!"expected CONNECT or STOMP frame"
  | .unexpectedCommand => b!"unexpected frame command"
  | .unknownCommand => b!"unknown command"
  | .receiptInConnect => b!"receipt header prohibited in CONNECT or STOMP frame"
  | .authenticationFailed => b!"authentication failed"
  | .txAlreadyInProgress => b!"transaction already in progress"
  | .txUnknown => b!"unknown transaction"
  | .unsupportedVersion => b!"unsupported version"
  | .subscriptionExists => b!"subscription already exists"
  | .subscriptionNotFound => b!"subscription not found"
  | .unknownVersion => b!"incompatible version"
  | .notConnectFrame => b!"operation valid for STOMP and CONNECT frames only"
  | .invalidHeartBeat => b!"invalid format for heart-beat"
  | .invalidOperationForFrame => b!"invalid operation for frame"
  | .missingHeader name => b!"missing header: " ++ name
  | .parse s => cfg.parseErr s
  | .write => []

/-- `QueuePrefix` (`server/server.go:22`) and `isQueueDestination` (`server/processor.go:98-100`). -/
def isQueueDestination (dest : Bytes) : Bool := b!"/queue".isPrefixOf dest

/-- `DefaultHeartBeat` (`server/server.go`) and `config.HeartBeat` (`server/processor.go:140-145`): the
effective minimum from the field of `Server`. -/
def configHeartBeat (field : Int) : Int := if field = 0 then Client.minute else field

/-- The fields of `Server` that reach the connections (`server/server.go:43-49`). `Addr`, `QueueStorage` and `Log` are not
among them. -/
structure Settings where
  authenticator : Option (Bytes → Bytes → Bool) := none
  heartBeat : Int := 0

/-- `config.Authenticate` (`server/processor.go:147-154`). -/
def Settings.authenticate (o : Settings) (login passcode : Bytes) : Bool :=
  match o.authenticator with
  | some a => a login passcode
  | none => true

/-- `newConfig` (`server/processor.go:136-138`), as the connections see it. -/
def Settings.config (o : Settings) (parseErr : Bytes → Bytes) : Config :=
  ⟨o.authenticate, configHeartBeat o.heartBeat, parseErr⟩

end Stomp.Server
