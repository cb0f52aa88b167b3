import Verif.Model.HeaderHeap
import Verif.Model.Server.Types
/-!
# Broadcasting at the level of pointers

`server/topic/topic.go:47-73` (`Topic.Enqueue`) and `server/client/subscription.go:71-84` (`SendTopicFrame`,
`setSubscriptionHeader`) on the heap of `Verif.Model.HeaderHeap`. The system model (`Sys.topicEnqueue`) hands out
values; here the frames are the heap objects that the code passes through the channels.
-/
namespace Stomp.Server
open Stomp Stomp.Heap

/-- `SendTopicFrame` (`server/client/subscription.go:71-84`) up to the channel send: sets the header of the frame in place.
Simplification: the check for a pending frame is in `Sys.step`. -/
def sendTopicFrame (g : Nat → Nat → Nat) (H : HHeap) (f : Nat) (id : Bytes) : Option HHeap :=
  match H.frames[f]? with
  | none => none
  | some o => Heap.set g H o.hdr Hdr.subscription id

/-- A frame pointer put into the channel of a subscription's connection; `heap` is the heap at that time (ghost). -/
structure Sent where
  sub : SubRef
  id : Bytes
  frame : Nat
  heap : HHeap
  deriving DecidableEq, Repr

/-- `Topic.Enqueue` under way: the heap, the subscriptions (with their ids) still to be served, the pointers handed out. -/
structure Casting where
  heap : HHeap
  todo : List (SubRef × Bytes)
  sent : List Sent := []
  deriving DecidableEq, Repr

/-- One iteration of `Topic.Enqueue` (`server/topic/topic.go:52-72`): the last subscription gets the frame `f` itself, the others a
clone. -/
def Casting.send (g : Nat → Nat → Nat) (f : Nat) (c : Casting) : Option Casting :=
  match c.todo with
  | [] => none
  | [x] =>
    match sendTopicFrame g c.heap f x.2 with
    | none => none
    | some H => some ⟨H, [], c.sent ++ [⟨x.1, x.2, f, H⟩]⟩
  | x :: y :: rest =>
    match cloneFrame c.heap f with
    | none => none
    | some H1 =>
      match sendTopicFrame g H1 c.heap.frames.length x.2 with
      | none => none
      | some H => some ⟨H, y :: rest, c.sent ++ [⟨x.1, x.2, c.heap.frames.length, H⟩]⟩

end Stomp.Server
