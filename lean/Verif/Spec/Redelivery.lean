import Verif.Spec.Delivery
/-! # Specification of redelivery: which messages are away from their queue, and in which order they come out of it -/
namespace Stomp.Server.Spec
open Stomp

/-- The messages a connection has been handed and has neither settled nor sent back. -/
def holding (k : Conn) : List Msg := (k.subCh ++ k.subList).filterMap (fun i => (k.heap[i]?).bind (·.frame))

/-- The messages on their way back in requests. -/
def returning (l : List Req) : List Msg := l.filterMap (fun | .requeue m => m | _ => none)

/-- The messages that are handed out, held by a connection, or on their way back. -/
def away (s : Sys) : List Msg :=
  s.todo.filterMap (fun | .queue r => (theSub s r).bind (·.frame) | .topic _ _ _ => none) ++ s.conns.flatMap holding ++
  (returning s.reqCh ++ s.conns.flatMap (fun k => returning (unsent k)))

/-- Those of one destination. -/
def outstanding (d : Bytes) (s : Sys) : List Tag := (away s).filterMap (fun m => if target m = some d then some m.tag else none)

/-- A list without immediate repetitions. -/
def once : List Tag → List Tag
  | [] => []
  | [a] => [a]
  | a :: b :: l => if a = b then once (b :: l) else a :: once (b :: l)

/-- The messages sent to a queue, in the order in which the processor took them. -/
def enqueued (i : List QAsk) : List Tag := i.filterMap (fun | .put false t => some t | _ => none)

end Stomp.Server.Spec
