import Verif.Model.Server.System
/-!
# A server with a queue storage of the user (`Server.QueueStorage`)

`server/queue/storage.go`, `server/server.go:44`, `server/processor.go:28-32`, `server/queue/queue.go`.

The queue storage can be any implementation of an interface. Everything but the four functions of `Queue` is as in
`Model/Server/System`.
-/
namespace Stomp.Server
open Stomp

/-- `queue.Storage` (`server/queue/storage.go:12-35`), with the state of the storage made explicit. `Enqueue` and `Requeue` return `true` for a nil error,
`Dequeue` returns `none` for an error and `some none` for a nil frame. A storage hands back what was given to it: what it does to the bytes on the way is
not modelled. -/
structure QueueStorage (σ : Type) where
  new : σ
  enqueue : σ → Bytes → Msg → Bool × σ
  requeue : σ → Bytes → Msg → Bool × σ
  dequeue : σ → Bytes → Option (Option Msg) × σ
  start : σ → σ
  stop : σ → σ

/-- `MemoryQueueStorage` as an implementation of it (`server/queue/memory_queue.go`). -/
def memoryStorage : QueueStorage Store where
  new := []
  enqueue s q m := (true, s.enqueue q m)
  requeue s q m := (true, s.requeue q m)
  dequeue s q := (some (s.dequeue q).1, (s.dequeue q).2)
  start _ := []
  stop _ := []

/-- A server and the storage given to it. The field `store` of the server is not used. Ghost: how many errors the storage has returned. -/
structure SysOver (σ : Type) where
  sys : Sys := {}
  st : σ
  errors : Nat := 0
  deriving DecidableEq, Repr

namespace SysOver
variable {σ : Type}

/-- `Queue.Subscribe` (`server/queue/queue.go:31-46`). The processor ignores its error (`server/processor.go:48-49`). -/
def queueSubscribe (q : QueueStorage σ) (x : SysOver σ) (dest : Bytes) (r : SubRef) : SysOver σ :=
  match q.dequeue x.st dest with
  | (none, st) => { x with st := st, errors := x.errors + 1 }
  | (some none, st) =>
    if (x.sys.sub r).inList then { x with sys := { x.sys with crashed := true }, st := st }
    else
      { x with
        sys := { x.sys.setSub r (fun b => { b with inList := true }) with
          queues := x.sys.queues.set dest (x.sys.queues.list dest ++ [r]), qlog := x.sys.qlog ++ [(dest, .wait r)] },
        st := st }
  | (some (some m), st) => { x with sys := x.sys.sendQueueFrame dest r m, st := st }

/-- `Queue.Enqueue` and `Queue.Requeue` (`server/queue/queue.go:57-86`). The processor ignores their errors (`server/processor.go:71-73,87-88`). -/
def queuePut (q : QueueStorage σ) (x : SysOver σ) (front : Bool) (dest : Bytes) (m : Msg) : SysOver σ :=
  match x.sys.queues.list dest with
  | [] =>
    let res := if front then q.requeue x.st dest m else q.enqueue x.st dest m
    { sys := { x.sys with qlog := x.sys.qlog ++ [(dest, .put front m.tag)] },
      st := res.2,
      errors := if res.1 then x.errors else x.errors + 1 }
  | r :: rs =>
    { x with sys := ({ x.sys.setSub r (fun b => { b with inList := false }) with
        queues := x.sys.queues.set dest rs, qlog := x.sys.qlog ++ [(dest, .put front m.tag)] } : Sys).sendQueueFrame dest r m }

/-- Handling of one request (`server/processor.go:44-92`). -/
def handle (q : QueueStorage σ) (x : SysOver σ) : Req → SysOver σ
  | .subscribe r =>
    let dest := (x.sys.sub r).dest
    if isQueueDestination dest then x.queueSubscribe q dest r else { x with sys := x.sys.topicSubscribe dest r }
  | .enqueue m =>
    match m.frame.header.contains Hdr.destination with
    | none => { x with sys := { x.sys with crashed := true } }
    | some dest =>
      if isQueueDestination dest then x.queuePut q false dest m
      else { x with sys := x.sys.topicEnqueue dest m }
  | .requeue none => { x with sys := { x.sys with crashed := true } }
  | .requeue (some m) =>
    match m.frame.header.contains Hdr.destination with
    | none => { x with sys := { x.sys with crashed := true } }
    | some dest =>
      if isQueueDestination dest then x.queuePut q true dest m
      else { x with sys := { x.sys with dropped := x.sys.dropped ++ [m.tag] } }
  | r => { x with sys := x.sys.handle r }

/-- One step, as `Sys.step`. -/
def step (q : QueueStorage σ) (cfg : Config) (x : SysOver σ) (e : Sys.Ev) : Option (SysOver σ) :=
  match e with
  | .proc =>
    if x.sys.crashed then none
    else
      match x.sys.todo, x.sys.reqCh with
      | [], r :: rs => some (({ x with sys := { x.sys with reqCh := rs } } : SysOver σ).handle q r)
      | _, _ => none
  | e => (x.sys.step cfg e).map (fun s => { x with sys := s })

/-- The server at start (`newRequestProcessor`, `server/processor.go:23-35`): nobody calls `Start` (nor, later, `Stop`). -/
def init (q : QueueStorage σ) : SysOver σ := { st := q.new }

/-- A run under any schedule. -/
def run (q : QueueStorage σ) (cfg : Config) : SysOver σ → List Sys.Ev → Option (SysOver σ)
  | x, [] => some x
  | x, e :: es =>
    match x.step q cfg e with
    | none => none
    | some x => run q cfg x es

end SysOver
end Stomp.Server
