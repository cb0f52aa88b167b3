import Verif.Model.Server.System
/-!
# Which goroutine touches which subscription and which frame, and what orders the accesses

The server's goroutines share the subscriptions (`server/client/subscription.go:7-15`) and the frames of the messages.
There are no mutexes: "Having all processing in one go routine helps eliminate any race conditions"
(`server/client/conn.go:184-185`, `104-108`). A subscription or frame is handed from one goroutine to the other in a request
(`conn.go:301`, `308`, `352`, `659`, `697`, `733`, `739`, `767`) or through the connection's `subChannel`
(`subscription.go:65`). Here every step of the server is given the accesses the code may make in it. The order of the accesses is in
`Verif/Spec/Races.lean`.

Simplifications. The fields of a subscription are one memory cell, and so are the command and headers of a frame; fields that
are written only before the subscription is handed on the first time (`conn`, `dest`, `id`, `ack`, and `msgId`, which is never
written) count as accessed only with the others. Accesses within one step are not ordered, as they are made by one goroutine.
A message for a topic is not followed after the topic has got it: each subscription gets a copy of its own, the last one the
frame itself, and the processor does not come back to it (`server/topic/topic.go:40-68`, property C39). Before `EnqueueOp` a frame is with
`readLoop` or `processLoop` of one connection.
-/
namespace Stomp.Server
open Stomp

/-- The goroutines of the server: that of `Listen` (`server/processor.go:40`, `103-129`), `readLoop` and `processLoop` of each
connection (`server/client/conn.go:63-64`), and the one in `Serve` (`processor.go:39-95`). -/
inductive Goroutine
  | listen
  | read (c : Nat)
  | loop (c : Nat)
  | processor
  deriving DecidableEq, Repr

/-- The goroutine that makes a step. A request is sent by the connection's `processLoop`. -/
def Sys.Ev.goroutine : Sys.Ev → Goroutine
  | .accept => .listen
  | .conn c (.recv _) => .read c
  | .conn c .readErr => .read c
  | .conn c _ => .loop c
  | .flush c => .loop c
  | .proc => .processor
  | .push => .processor

/-- What goroutines share. -/
inductive Cell
  | sub (r : SubRef)
  | frame (t : Tag)
  deriving DecidableEq, Repr

/-- The cell of the frame allocated to a subscription. -/
def frameCell (k : Conn) (i : Nat) : List (Cell × Bool) :=
  match (deref k.heap i).frame with
  | some m => [(.frame m.tag, true)]
  | none => []

/-- The subscriptions in the list of those that await an acknowledgement. `Ack`, `Nack` and `Get` go through the list, look
at the fields and reset `frame` or `subList` (`server/client/subscription_list.go:33-42`, `72-102`, `server/client/conn.go:690-698`, `731-740`). -/
def listCells (k : Conn) : List (Cell × Bool) := k.subList.map (fun i => (.sub ⟨k.me, i⟩, true))

/-- The subscription at the head of the `subChannel` and its frame: `conn.go:282-309` (`allocateMessageId` writes the headers of the frame,
`410-424`), `391-396`. -/
def headCells (k : Conn) : List (Cell × Bool) :=
  match k.subCh with
  | i :: _ => (.sub ⟨k.me, i⟩, true) :: frameCell k i
  | [] => []

/-- What a connection does with a request it has still to send, before sending it: `sub.frame = nil` (`conn.go:300`, `693`, `736`),
`f.Command = MESSAGE` (`conn.go:766`), `sub.subList = nil` in `Get` when the connection is cleaned up
(`conn.go:351-353`; that is the subscription that has the frame). -/
def outCells (k : Conn) : Req → List (Cell × Bool)
  | .subscribe r => [(.sub r, true)]
  | .enqueue m => [(.frame m.tag, true)]
  | .requeue (some m) =>
    (.frame m.tag, true) ::
      ((List.range k.heap.length).filter (fun i => decide ((deref k.heap i).frame = some m))).map (fun i => (.sub ⟨k.me, i⟩, true))
  | _ => []

/-- What a step of a connection may access; `k'` is the connection after it. A frame read from the client may be any: the list is gone through
for ACK and NACK, also within a transaction that is committed; subscriptions are made (`conn.go:633-636`) and SEND frames become
messages (`conn.go:766`). -/
def connAccesses (k : Conn) (e : Conn.Ev) (k' : Conn) : List (Cell × Bool) :=
  match e with
  | .frame _ _ =>
    listCells k ++
    (List.range' k.heap.length (k'.heap.length - k.heap.length)).map (fun i => (.sub ⟨k.me, i⟩, true)) ++
    (List.range' k.sent (k'.sent - k.sent)).map (fun n => (.frame ⟨k.me, n⟩, true))
  | .sub _ => headCells k
  | .clean =>
    match k.stage with
    | .acklist => listCells k
    | .drain1 => headCells k
    | .drain2 => headCells k
    | _ => []
  | _ => []

/-- The code between one send of a request and the next. -/
def flushAccesses (k : Conn) : List (Cell × Bool) :=
  listCells k ++ k.outbox.tail.flatMap (fun | .req r => outCells k r | .panic => [])

/-- What the processor may access when it handles a request (`server/processor.go:45-91`): a subscription gets into the list of a queue, or gets a
frame (`server/queue/queue.go:31-46`, `server/client/subscription.go:59-66`, `79-84`); it is removed from the list only if it is
there (`subscription_list.go:45-53`); a message is looked at, goes to the storage or to the subscription at the head of the list
(`queue.go:57-86`). The destination of a subscription is not accessed as part of the cell: it never changes. -/
def procAccesses (s : Sys) : Req → List (Cell × Bool)
  | .subscribe r =>
    (.sub r, true) ::
      (match s.store.list (s.sub r).dest with
      | m :: _ => [(.frame m.tag, true)]
      | [] => [])
  | .unsubscribe r => if r ∈ s.queues.list (s.sub r).dest then [(.sub r, true)] else []
  | .enqueue m => (.frame m.tag, true) :: putCells m
  | .requeue (some m) => (.frame m.tag, true) :: putCells m
  | _ => []
where
  /-- The subscription a message is given to. -/
  putCells (m : Msg) : List (Cell × Bool) :=
    match m.frame.header.contains Hdr.destination with
    | some d => ((s.queues.list d).take 1).map (fun r => (.sub r, true))
    | none => []

/-- The accesses of a step of the server from `s` to `s'`; the truth value says whether it is a write. `SendTopicFrame` looks whether the
subscription has a frame (`subscription.go:71-84`). -/
def accesses (s : Sys) (e : Sys.Ev) (s' : Sys) : List (Cell × Bool) :=
  match e with
  | .accept => []
  | .conn c e => connAccesses (s.conn c) e (s'.conn c)
  | .flush c => flushAccesses (s.conn c)
  | .proc => match s.reqCh with | r :: _ => procAccesses s r | [] => []
  | .push => match s.todo with | .topic _ r _ :: _ => [(.sub r, false)] | _ => []

end Stomp.Server
