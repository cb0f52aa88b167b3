import Verif.Model.Server.System
/-!
# The managers of queues and topics, with the objects they hand out

`server/queue/manager.go`, `server/topic/manager.go`, the constructors in `server/queue/queue.go` and `server/topic/topic.go`.

In `Model/Server/System` every destination has a list of subscribers from the start. Here queues and topics are objects, made when they are first needed, and
found again through the maps of the managers. Everything else is as there.
-/
namespace Stomp.Server
open Stomp

/-- A `Queue` (`server/queue/queue.go:12-16`) or a `Topic` (`server/topic/topic.go:15-18`). Simplifications: the list of subscriptions is a sequence (for queues see C88); the
storage, the same for all queues, is in `Sys`. -/
structure Channel where
  dest : Bytes
  subs : List SubRef
  deriving DecidableEq, Repr

/-- `newQueue` (`server/queue/queue.go:19-25`), `newTopic` (`server/topic/topic.go:21-26`). -/
def newChannel (dest : Bytes) : Channel := { dest := dest, subs := [] }

/-- A `Manager` (`server/queue/manager.go:4-7`, `server/topic/manager.go:6-8`): the map, and the objects it has made; a pointer is a number. -/
structure Manager where
  heap : List Channel := []
  map : AMap Nat := []
  deriving DecidableEq, Repr

namespace Manager

/-- `NewManager` (`server/queue/manager.go:10-13`, `server/topic/manager.go:11-14`). -/
def new : Manager := { heap := [], map := [] }

/-- `Find` (`server/queue/manager.go:16-23`, `server/topic/manager.go:17-24`). -/
def find (m : Manager) (dest : Bytes) : Nat × Manager :=
  match m.map.get? dest with
  | some p => (p, m)
  | none => (m.heap.length, { heap := m.heap ++ [newChannel dest], map := m.map.set dest m.heap.length })

/-- Dereference a pointer. -/
def obj (m : Manager) (p : Nat) : Channel := m.heap.getD p (newChannel [])

/-- Change the list of subscriptions of an object. -/
def setSubs (m : Manager) (p : Nat) (l : List SubRef) : Manager := { m with heap := m.heap.modify p (fun o => { o with subs := l }) }

end Manager

/-- The server with its two managers (`server/processor.go:15-21`). The fields `queues` and `topics` of `sys` are not used. -/
structure MSys where
  sys : Sys := Sys.init
  qm : Manager := Manager.new
  tm : Manager := Manager.new
  deriving DecidableEq, Repr

namespace MSys

/-- `Queue.Subscribe` (`server/queue/queue.go:31-46`) of the queue `p`. -/
def queueSubscribe (x : MSys) (p : Nat) (r : SubRef) : MSys :=
  match x.sys.store.dequeue (x.sys.sub r).dest with
  | (none, st) =>
    if (x.sys.sub r).inList then { x with sys := { x.sys with store := st, crashed := true } }
    else
      { x with
        qm := x.qm.setSubs p ((x.qm.obj p).subs ++ [r]),
        sys := { x.sys.setSub r (fun b => { b with inList := true }) with store := st, qlog := x.sys.qlog ++ [((x.qm.obj p).dest, .wait r)] } }
  | (some m, st) => { x with sys := ({ x.sys with store := st } : Sys).sendQueueFrame (x.qm.obj p).dest r m }

/-- `Queue.Unsubscribe` (`server/queue/queue.go:49-51`). -/
def queueUnsubscribe (x : MSys) (p : Nat) (r : SubRef) : MSys :=
  if r ∈ (x.qm.obj p).subs then
    { x with
      qm := x.qm.setSubs p ((x.qm.obj p).subs.erase r),
      sys := { x.sys.setSub r (fun b => { b with inList := false }) with qlog := x.sys.qlog ++ [((x.qm.obj p).dest, .leave r)] } }
  else x

/-- `Queue.Enqueue` and `Queue.Requeue` (`server/queue/queue.go:57-86`). -/
def queuePut (x : MSys) (front : Bool) (p : Nat) (m : Msg) : MSys :=
  match (x.qm.obj p).subs with
  | [] =>
    { x with
      sys := { x.sys with
        store := if front then x.sys.store.requeue (x.qm.obj p).dest m else x.sys.store.enqueue (x.qm.obj p).dest m,
        qlog := x.sys.qlog ++ [((x.qm.obj p).dest, .put front m.tag)] } }
  | r :: rs =>
    { x with
      qm := x.qm.setSubs p rs,
      sys := ({ x.sys.setSub r (fun b => { b with inList := false }) with
        qlog := x.sys.qlog ++ [((x.qm.obj p).dest, .put front m.tag)] } : Sys).sendQueueFrame (x.qm.obj p).dest r m }

/-- `Topic.Subscribe` (`server/topic/topic.go:31-33`). -/
def topicSubscribe (x : MSys) (p : Nat) (r : SubRef) : MSys :=
  { x with tm := x.tm.setSubs p ((x.tm.obj p).subs ++ [r]), sys := { x.sys with tlog := x.sys.tlog ++ [((x.tm.obj p).dest, .join r)] } }

/-- `Topic.Unsubscribe` (`server/topic/topic.go:36-43`). -/
def topicUnsubscribe (x : MSys) (p : Nat) (r : SubRef) : MSys :=
  { x with tm := x.tm.setSubs p ((x.tm.obj p).subs.erase r), sys := { x.sys with tlog := x.sys.tlog ++ [((x.tm.obj p).dest, .leave r)] } }

/-- `Topic.Enqueue` (`server/topic/topic.go:47-73`). -/
def topicEnqueue (x : MSys) (p : Nat) (m : Msg) : MSys :=
  { x with sys := { x.sys with todo := (x.tm.obj p).subs.map (fun r => .topic (x.tm.obj p).dest r m), tlog := x.sys.tlog ++ [((x.tm.obj p).dest, .cast m.tag)] } }

/-- Handling of one request (`server/processor.go:44-92`): first the queue or topic is found, then its method is called. -/
def handle (x : MSys) : Req → MSys
  | .subscribe r =>
    let dest := (x.sys.sub r).dest
    if isQueueDestination dest then ({ x with qm := (x.qm.find dest).2 } : MSys).queueSubscribe (x.qm.find dest).1 r
    else ({ x with tm := (x.tm.find dest).2 } : MSys).topicSubscribe (x.tm.find dest).1 r
  | .unsubscribe r =>
    let dest := (x.sys.sub r).dest
    if isQueueDestination dest then ({ x with qm := (x.qm.find dest).2 } : MSys).queueUnsubscribe (x.qm.find dest).1 r
    else ({ x with tm := (x.tm.find dest).2 } : MSys).topicUnsubscribe (x.tm.find dest).1 r
  | .enqueue m =>
    match m.frame.header.contains Hdr.destination with
    | none => { x with sys := { x.sys with crashed := true } }
    | some dest =>
      if isQueueDestination dest then ({ x with qm := (x.qm.find dest).2 } : MSys).queuePut false (x.qm.find dest).1 m
      else ({ x with tm := (x.tm.find dest).2 } : MSys).topicEnqueue (x.tm.find dest).1 m
  | .requeue none => { x with sys := { x.sys with crashed := true } }
  | .requeue (some m) =>
    match m.frame.header.contains Hdr.destination with
    | none => { x with sys := { x.sys with crashed := true } }
    | some dest =>
      if isQueueDestination dest then ({ x with qm := (x.qm.find dest).2 } : MSys).queuePut true (x.qm.find dest).1 m
      else { x with sys := { x.sys with dropped := x.sys.dropped ++ [m.tag] } }
  | .connected _ => x
  | .disconnected _ => x

/-- One step (`Sys.step`); only the handling of a request (`server/processor.go:43-92`) has to do with the managers. -/
def step (cfg : Config) (x : MSys) : Sys.Ev → Option MSys
  | .proc =>
    if x.sys.crashed then none
    else match x.sys.todo, x.sys.reqCh with
    | [], r :: rs => some (({ x with sys := { x.sys with reqCh := rs } } : MSys).handle r)
    | _, _ => none
  | e => (x.sys.step cfg e).map (fun s => { x with sys := s })

/-- The server at start (`newRequestProcessor`, `server/processor.go:23-37`). -/
def init : MSys := {}

/-- A run of the server under any schedule. -/
def run (cfg : Config) : MSys → List Sys.Ev → Option MSys
  | x, [] => some x
  | x, e :: es =>
    match x.step cfg e with
    | none => none
    | some x => run cfg x es

end MSys
end Stomp.Server
