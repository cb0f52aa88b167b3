import Verif.Spec.Queue
import Verif.Spec.Messages
import Verif.Spec.Session
/-!
# Specification of message delivery

What a MESSAGE frame written to a subscriber has to do with the SEND frame it came from, and the places a message can be in.
-/
namespace Stomp.Server.Spec
open Stomp

/-- The headers the server itself puts on the messages it delivers. -/
def own : List Bytes := [b!"subscription", b!"message-id", b!"id", b!"ack"]

/-- The other headers, in order. -/
def others (h : Header) : Header := h.filter (fun e => decide (e.1 ∉ own))

/-- The headers of a SEND that have no meaning for the server's transactions, receipts and deliveries, in order. -/
def application (h : Header) : Header :=
  h.filter (fun e => decide (e.1 ∉ own ∧ e.1 ≠ b!"receipt" ∧ e.1 ≠ b!"transaction"))

/-- The MESSAGE frame `g` delivers the SEND frame `f` to the subscription made by the SUBSCRIBE frame `q`. -/
structure Delivers (f q g : Frame) : Prop where
  command : g.command = b!"MESSAGE"
  body : g.body = f.body
  headers : application g.header = application f.header
  destination : ∃ d, hdr f b!"destination" = some d ∧ hdr g b!"destination" = some d ∧ hdr q b!"destination" = some d
  subscription : ∃ i, hdr q b!"id" = some i ∧ hdr g b!"subscription" = some i
  messageId : (hdr g b!"message-id").isSome
  noAck : (∀ d, hdr q b!"destination" = some d → ¬IsQueue d) ∨ hdr q b!"ack" = none ∨ hdr q b!"ack" = some b!"auto" → hdr g b!"ack" = none
  ack : (∃ d, hdr q b!"destination" = some d ∧ IsQueue d) → hdr q b!"ack" ≠ none → hdr q b!"ack" ≠ some b!"auto" → hdr g b!"ack" = hdr g b!"message-id"

/-! ## Places of messages -/

/-- The messages in requests to the processor. -/
def inRequests (l : List Req) : List Tag :=
  l.filterMap (fun | .enqueue m => some m.tag | .requeue (some m) => some m.tag | _ => none)

/-- The requests a connection still has to send. -/
def unsent (k : Conn) : List Req := k.outbox.filterMap (fun | .req r => some r | _ => none)

/-- The messages allocated to the listed subscriptions of a connection. -/
def allocatedTo (k : Conn) (l : List Nat) : List Tag := l.filterMap (fun i => (k.heap[i]?).bind (fun x => x.frame.map (·.tag)))

/-- Waiting to be processed: in requests that are in the request channel or about to be sent to it. -/
def pendingRequests (s : Sys) : List Tag := inRequests s.reqCh ++ s.conns.flatMap (fun k => inRequests (unsent k))

/-- Stored in the queue of a destination. -/
def stored (s : Sys) (d : Bytes) : List Tag := (s.store.list d).map (·.tag)

/-- Allocated to a subscription, and on the way to its connection. -/
def onTheWay (s : Sys) : List Tag :=
  s.todo.filterMap (fun | .queue r => (theSub s r).bind (fun x => x.frame.map (·.tag)) | .topic _ _ _ => none)

/-- Allocated to a subscription: on the way to its connection, in the connection's channel, or waiting for an acknowledgement. -/
def allocated (s : Sys) : List Tag :=
  onTheWay s ++ s.conns.flatMap (fun k => allocatedTo k (k.subCh ++ k.subList))

/-- Acknowledged, or written to an auto-ack subscriber. -/
def finished (s : Sys) : List Tag := s.conns.flatMap (fun k => k.acked ++ k.autoDone)

/-- Dropped by a connection: writing the message failed, or the connection panicked with the message in hand. -/
def failed (s : Sys) : List Tag := s.conns.flatMap (·.lost)

/-- A message accepted for a queue: a SEND for that destination that took effect. -/
def AcceptedFor (s : Sys) (d : Bytes) (o : Msg) : Prop :=
  IsQueue d ∧ target o = some d ∧ ∃ (c : Nat) (k : Conn), s.conns[c]? = some k ∧ o ∈ messages c 0 k.effective

end Stomp.Server.Spec
