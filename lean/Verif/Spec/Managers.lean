import Verif.Model.Server.Managers
/-!
# What the managers of queues and topics are for
-/
namespace Stomp.Server.Spec
open Stomp Stomp.Server

/-- Who is subscribed to a destination: those in the object the map has for it. -/
def subsAt (m : Manager) (d : Bytes) : List SubRef :=
  match m.map.get? d with
  | none => []
  | some p =>
    match m.heap[p]? with
    | none => []
    | some o => o.subs

/-- The map and the objects agree: what is found for a destination is an object for that destination, and every object ever made is found. -/
structure Sound (m : Manager) : Prop where
  found : ∀ d p, m.map.get? d = some p → ∃ o, m.heap[p]? = some o ∧ o.dest = d
  kept : ∀ p o, m.heap[p]? = some o → m.map.get? o.dest = some p

/-- The server with objects and the server in which every destination has a list from the start are in the same state. -/
structure Same (x : MSys) (s : Sys) : Prop where
  conns : s.conns = x.sys.conns
  reqCh : s.reqCh = x.sys.reqCh
  store : s.store = x.sys.store
  todo : s.todo = x.sys.todo
  crashed : s.crashed = x.sys.crashed
  qlog : s.qlog = x.sys.qlog
  tlog : s.tlog = x.sys.tlog
  dropped : s.dropped = x.sys.dropped
  queues : ∀ d, s.queues.list d = subsAt x.qm d
  topics : ∀ d, s.topics.list d = subsAt x.tm d

end Stomp.Server.Spec
