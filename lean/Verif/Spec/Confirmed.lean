import Verif.Spec.EndToEnd
import Verif.Spec.Session
import Verif.Spec.Messages
import Verif.Spec.TopicOrder
/-! # Specification: what a program may conclude from a receipt -/
namespace Stomp.Spec
open Stomp

/-- What a request puts on the wire. -/
def putOn : Client.Obs → Option Frame
  | .accepted _ r => Client.Spec.wire r.frame
  | _ => none

/-- What the requests in (part of) a program's log put on the wire, in order. -/
def sentIn (p : List Client.Obs) : List Frame := p.filterMap putOn

/-- A SEND frame outside transactions. -/
def lone (f : Frame) : Bool := decide (f.command = b!"SEND" ∧ firstValue f.header b!"transaction" = none)

/-- A SEND frame in transaction `t`. -/
def within (t : Bytes) (f : Frame) : Bool := decide (f.command = b!"SEND" ∧ firstValue f.header b!"transaction" = some t)

/-- A frame that opens or closes transaction `t`. -/
def bounds (t : Bytes) (f : Frame) : Bool :=
  decide (f.command ∈ [b!"BEGIN", b!"COMMIT", b!"ABORT"] ∧ firstValue f.header b!"transaction" = some t)

/-- The message a SEND frame becomes. -/
def asMessage (f : Frame) : Frame := { Server.Spec.clean f with command := b!"MESSAGE" }

/-- The server has a message: if it is for a queue, it is in exactly one of the places of C37, exactly once; if it is for a topic, the topic has sent it to its subscriptions, or the message
waits to be processed. -/
structure Has (cfg : Server.Config) (es : List Server.Sys.Ev) (s : Server.Sys) (m : Server.Msg) : Prop where
  queue : ∀ d, Server.Spec.target m = some d → Server.Spec.IsQueue d →
    (Server.Spec.pendingRequests s ++ Server.Spec.stored s d ++ Server.Spec.allocated s ++ Server.Spec.finished s ++ Server.Spec.failed s).count m.tag = 1
  topic : ∀ d, Server.Spec.target m = some d → ¬Server.Spec.IsQueue d →
    m.tag ∈ Server.Spec.broadcast d cfg es ∨ m.tag ∈ Server.Spec.pendingRequests s

end Stomp.Spec
