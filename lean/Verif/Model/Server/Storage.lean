import Verif.Model.Server.Types
/-!
# `MemoryQueueStorage` (`server/queue/memory_queue.go`)
-/
namespace Stomp.Server
open Stomp

/-- `MemoryQueueStorage.lists` (`server/queue/memory_queue.go:10-12`); a `*list.List` is a list. -/
abbrev Store := AMap (List Msg)

/-- `Enqueue` (`server/queue/memory_queue.go:19-28`). -/
def Store.enqueue (s : Store) (queue : Bytes) (m : Msg) : Store :=
  match s.get? queue with
  | none => s.set queue [m]
  | some l => s.set queue (l ++ [m])

/-- `Requeue` (`server/queue/memory_queue.go:33-42`). -/
def Store.requeue (s : Store) (queue : Bytes) (m : Msg) : Store :=
  match s.get? queue with
  | none => s.set queue [m]
  | some l => s.set queue (m :: l)

/-- `Dequeue` (`server/queue/memory_queue.go:46-58`). -/
def Store.dequeue (s : Store) (queue : Bytes) : Option Msg × Store :=
  match s.get? queue with
  | none => (none, s)
  | some [] => (none, s)
  | some (m :: l) => (some m, s.set queue l)

end Stomp.Server
