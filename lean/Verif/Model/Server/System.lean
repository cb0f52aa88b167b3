import Verif.Model.Server.Conn
import Verif.Model.Server.Storage
/-!
# The whole server: connections, the request channel and the request processor

`server/processor.go`, `server/queue/queue.go`, `server/queue/manager.go`, `server/topic/topic.go`,
`server/topic/manager.go`, `server/client/subscription.go`.

One step is one step of one goroutine. The processor takes a request from the channel (`processor.go:43`) and
handles it; what can block in the handling are the sends into the channels of a connection, so these are kept in
`todo` and done one at a time by `push`. The queue and topic managers create empty queues and topics on demand,
which is the same as every destination having one from the start.
-/
namespace Stomp.Server
open Stomp

/-- A channel send the processor still has to do for the current request: `conn.subChannel <- sub`
(`subscription.go:65`) or the check and header of `SendTopicFrame` followed by `conn.writeChannel <- f`
(`subscription.go:71-77`). The destination of a topic delivery is there for the log only. -/
inductive Delivery
  | queue (r : SubRef)
  | topic (dest : Bytes) (r : SubRef) (m : Msg)
  deriving DecidableEq, Repr

/-- What happened at a queue (ghost log): a message was put at its end or front, a subscription got a message,
started waiting, or left. -/
inductive QEv
  | put (front : Bool) (t : Tag)
  | take (r : SubRef) (t : Tag)
  | wait (r : SubRef)
  | leave (r : SubRef)
  deriving DecidableEq, Repr

/-- What happened at a topic (ghost log): a subscription joined or left, a message was sent to the topic, the
message was put into the channel of a subscription's connection. -/
inductive TEv
  | join (r : SubRef)
  | leave (r : SubRef)
  | cast (t : Tag)
  | give (r : SubRef) (m : Msg)
  deriving DecidableEq, Repr

/-- The server. `queues` and `topics` hold the subscriber lists by destination, `store` the queue storage.
Ghost logs: the events at the queues and topics, with the destination, and the tags of re-queue requests for topics, which
are dropped. -/
structure Sys where
  conns : List Conn := []
  reqCh : List Req := []
  queues : AMap (List SubRef) := []
  store : Store := []
  topics : AMap (List SubRef) := []
  todo : List Delivery := []
  crashed : Bool := false
  qlog : List (Bytes × QEv) := []
  tlog : List (Bytes × TEv) := []
  dropped : List Tag := []
  deriving DecidableEq, Repr

namespace Sys

/-- The connection with this number. -/
def conn (s : Sys) (c : Nat) : Conn := s.conns.getD c (Conn.init c)

/-- Dereference a subscription pointer. -/
def sub (s : Sys) (r : SubRef) : Sub := deref (s.conn r.conn).heap r.idx

/-- Assignment to a field of a subscription. -/
def setSub (s : Sys) (r : SubRef) (f : Sub → Sub) : Sys :=
  { s with conns := s.conns.modify r.conn (fun c => { c with heap := c.heap.modify r.idx f }) }

/-- `SendQueueFrame` (`server/client/subscription.go:59-66`, `79-84`) up to the channel send. -/
def sendQueueFrame (s : Sys) (dest : Bytes) (r : SubRef) (m : Msg) : Sys :=
  if (s.sub r).frame.isSome then { s with crashed := true }
  else
    let m : Msg := { m with frame := { m.frame with header := m.frame.header.set Hdr.subscription (s.sub r).id } }
    { s.setSub r (fun x => { x with frame := some m }) with
        todo := s.todo ++ [.queue r], qlog := s.qlog ++ [(dest, .take r m.tag)] }

/-- `Queue.Subscribe` (`server/queue/queue.go:31-46`) with `SubscriptionList.Add`
(`server/client/subscription_list.go:22-28`). -/
def queueSubscribe (s : Sys) (dest : Bytes) (r : SubRef) : Sys :=
  match s.store.dequeue dest with
  | (none, st) =>
    if (s.sub r).inList then { s with store := st, crashed := true }
    else
      { s.setSub r (fun x => { x with inList := true }) with
          store := st, queues := s.queues.set dest (s.queues.list dest ++ [r]), qlog := s.qlog ++ [(dest, .wait r)] }
  | (some m, st) => ({ s with store := st } : Sys).sendQueueFrame dest r m

/-- `Queue.Unsubscribe` (`server/queue/queue.go:49-51`) with `SubscriptionList.Remove`
(`server/client/subscription_list.go:45-53`). -/
def queueUnsubscribe (s : Sys) (dest : Bytes) (r : SubRef) : Sys :=
  if r ∈ s.queues.list dest then
    { s.setSub r (fun x => { x with inList := false }) with
        queues := s.queues.set dest ((s.queues.list dest).erase r), qlog := s.qlog ++ [(dest, .leave r)] }
  else s

/-- `Queue.Enqueue` and `Queue.Requeue` (`server/queue/queue.go:57-86`) with `SubscriptionList.Get`
(`server/client/subscription_list.go:33-42`); `front` distinguishes the two. -/
def queuePut (s : Sys) (front : Bool) (dest : Bytes) (m : Msg) : Sys :=
  match s.queues.list dest with
  | [] =>
    { s with store := if front then s.store.requeue dest m else s.store.enqueue dest m,
             qlog := s.qlog ++ [(dest, .put front m.tag)] }
  | r :: rs =>
    ({ s.setSub r (fun x => { x with inList := false }) with
        queues := s.queues.set dest rs, qlog := s.qlog ++ [(dest, .put front m.tag)] } : Sys).sendQueueFrame dest r m

/-- `Topic.Subscribe` (`server/topic/topic.go:31-33`). -/
def topicSubscribe (s : Sys) (dest : Bytes) (r : SubRef) : Sys :=
  { s with topics := s.topics.set dest (s.topics.list dest ++ [r]), tlog := s.tlog ++ [(dest, .join r)] }

/-- `Topic.Unsubscribe` (`server/topic/topic.go:36-43`). -/
def topicUnsubscribe (s : Sys) (dest : Bytes) (r : SubRef) : Sys :=
  { s with topics := s.topics.set dest ((s.topics.list dest).erase r), tlog := s.tlog ++ [(dest, .leave r)] }

/-- `Topic.Enqueue` (`server/topic/topic.go:47-73`): every subscriber gets the frame or a clone of it. -/
def topicEnqueue (s : Sys) (dest : Bytes) (m : Msg) : Sys :=
  { s with todo := (s.topics.list dest).map (fun r => .topic dest r m), tlog := s.tlog ++ [(dest, .cast m.tag)] }

/-- Handling of one request (`server/processor.go:44-92`). -/
def handle (s : Sys) : Req → Sys
  | .subscribe r =>
    let dest := (s.sub r).dest
    if isQueueDestination dest then s.queueSubscribe dest r else s.topicSubscribe dest r
  | .unsubscribe r =>
    let dest := (s.sub r).dest
    if isQueueDestination dest then s.queueUnsubscribe dest r else s.topicUnsubscribe dest r
  | .enqueue m =>
    match m.frame.header.contains Hdr.destination with
    | none => { s with crashed := true }
    | some dest =>
      if isQueueDestination dest then s.queuePut false dest m
      else s.topicEnqueue dest m
  | .requeue none => { s with crashed := true }
  | .requeue (some m) =>
    match m.frame.header.contains Hdr.destination with
    | none => { s with crashed := true }
    | some dest =>
      if isQueueDestination dest then s.queuePut true dest m
      else { s with dropped := s.dropped ++ [m.tag] }
  | .connected _ => s
  | .disconnected _ => s

/-- What can happen in the server: a connection is accepted (`server/processor.go:123-126`), a goroutine of a
connection makes a step, the processor accepts a request a connection wants to send, it handles the next request, or
it does the next channel send. -/
inductive Ev
  | accept
  | conn (c : Nat) (e : Conn.Ev)
  | flush (c : Nat)
  | proc
  | push
  deriving DecidableEq, Repr

/-- Events of a connection's own goroutines. -/
def internal : Conn.Ev → Bool
  | .recv _ => true
  | .readErr => true
  | .frame _ _ => true
  | .readClosed => true
  | .wr _ => true
  | .sub _ => true
  | .timer _ => true
  | .clean => true
  | .cleanUnsub _ => true
  | _ => false

/-- Capacity of the request channel (`server/processor.go:26`). -/
def reqCap : Nat := 128

/-- One step of the server; `none` if the event cannot happen. -/
def step (cfg : Config) (s : Sys) (e : Ev) : Option Sys :=
  if s.crashed then none
  else match e with
  | .accept => some { s with conns := s.conns ++ [Conn.init s.conns.length] }
  | .conn c e =>
    if internal e then
      match s.conns[c]? with
      | none => none
      | some k =>
        match k.step cfg e with
        | none => none
        | some k => some { s with conns := s.conns.set c k }
    else none
  | .flush c =>
    match s.conns[c]? with
    | none => none
    | some k =>
      match k.outbox with
      | [] => none
      | .panic :: _ => some { s with crashed := true }
      | .req r :: _ =>
        if s.reqCh.length < reqCap then
          match k.step cfg .flushed with
          | none => none
          | some k => some { s with conns := s.conns.set c k, reqCh := s.reqCh ++ [r] }
        else none
  | .proc =>
    match s.todo, s.reqCh with
    | [], r :: rs => some (({ s with reqCh := rs } : Sys).handle r)
    | _, _ => none
  | .push =>
    match s.todo with
    | [] => none
    | .queue r :: t =>
      match s.conns[r.conn]? with
      | none => none
      | some k =>
        match k.step cfg (.pushSub r.idx) with
        | none => none
        | some k => some { s with conns := s.conns.set r.conn k, todo := t }
    | .topic dest r m :: t =>
      match s.conns[r.conn]? with
      | none => none
      | some k =>
        if (deref k.heap r.idx).frame.isSome then some { s with crashed := true }
        else
          let m : Msg :=
            { m with frame := { m.frame with header := m.frame.header.set Hdr.subscription (deref k.heap r.idx).id } }
          match k.step cfg (.pushTopic m) with
          | none => none
          | some k =>
            some { s with conns := s.conns.set r.conn k, todo := t, tlog := s.tlog ++ [(dest, .give r m)] }

/-- The server at start. -/
def init : Sys := {}

/-- A run of the server under any schedule. -/
def run (cfg : Config) : Sys → List Ev → Option Sys
  | s, [] => some s
  | s, e :: es =>
    match s.step cfg e with
    | none => none
    | some s => run cfg s es

end Sys
end Stomp.Server
