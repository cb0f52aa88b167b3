import Verif.Model.Server.Serve
/-! # What property C94 talks about: starting, accepting, stopping -/
namespace Stomp.Server.Spec
open Stomp
variable {lis σ : Type}

/-- The address to listen on. -/
def address (addr : Bytes) : Bytes := if addr = [] then b!":61613" else addr

/-- What `Accept` has returned. -/
def outcomes (es : List Service.Ev) : List AcceptRes := es.filterMap fun | .accept r => some r | .sys _ => none

/-- What the server has seen of it: the connections that were accepted, and its own steps. -/
def seen (es : List Service.Ev) : List Sys.Ev := es.filterMap fun | .accept .conn => some .accept | .accept _ => none | .sys e => some e

/-- The failures at the end of a list of outcomes. -/
def failures (rs : List AcceptRes) : Nat := (rs.reverse.takeWhile (fun r => decide (r = .temporary))).length

/-- A call of a method of the storage. -/
inductive Called | start | stop | enqueue | requeue | dequeue
  deriving DecidableEq, Repr

/-- The storage `q`, with a record of what is called. -/
def recording (q : QueueStorage σ) : QueueStorage (σ × List Called) where
  new := (q.new, [])
  enqueue s n m := ((q.enqueue s.1 n m).1, (q.enqueue s.1 n m).2, s.2 ++ [.enqueue])
  requeue s n m := ((q.requeue s.1 n m).1, (q.requeue s.1 n m).2, s.2 ++ [.requeue])
  dequeue s n := ((q.dequeue s.1 n).1, (q.dequeue s.1 n).2, s.2 ++ [.dequeue])
  start s := (q.start s.1, s.2 ++ [.start])
  stop s := (q.stop s.1, s.2 ++ [.stop])

/-- Nothing more can happen by itself or from outside. -/
def Final (q : QueueStorage σ) (cfg : Config) (s : Service lis σ) : Prop := ∀ e, s.step q cfg e = none

end Stomp.Server.Spec
