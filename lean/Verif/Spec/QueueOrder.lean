import Verif.Spec.Queue
import Verif.Spec.Redelivery
import Verif.Spec.TopicOrder
/-! # Specification: the order in which a connection gets the messages of a queue -/
namespace Stomp.Server.Spec
open Stomp Stomp.Server

/-- The message of a write for destination `d`, whichever subscription it is for. -/
def writtenOf (d : Bytes) (w : Wr) : Option Tag :=
  match w.frame with
  | some f => if hdr f b!"destination" = some d then w.tag else none
  | none => none

/-- The messages written to a connection for destination `d`, in order. -/
def writtenOn (d : Bytes) (out : List Wr) : List Tag := out.filterMap (writtenOf d)

/-- The message of a handing-out to connection `c`. -/
def toConn (c : Nat) (e : SubRef × Tag) : Option Tag := if e.1.conn = c then some e.2 else none

/-- The messages of queue `d` handed out to subscriptions of connection `c`, in order. -/
def handedTo (d : Bytes) (c : Nat) (cfg : Config) (es : List Sys.Ev) : List Tag := (observe (handed d) cfg Sys.init es).filterMap (toConn c)

/-- The messages sent to queue `d`, in the order in which the processor takes them. -/
def sentTo (d : Bytes) (cfg : Config) (es : List Sys.Ev) : List Tag := enqueued (observe (asked d) cfg Sys.init es)

end Stomp.Server.Spec
