import Verif.Model.Server.Types
/-!
# `SubscriptionList` (`server/client/subscription_list.go`) and the ack predicates of `Subscription`

A list of pointers into a heap of subscription objects. `Add`, `Get` and `Remove` maintain the `subList`
pointer of the element; `Ack`, `Nack` and `FindByIdAndRemove` do not.
-/
namespace Stomp.Server
open Stomp

/-- `Subscription.IsAckedBy` (`server/client/subscription.go:38-51`); `none` is the panic. -/
def Sub.isAckedBy (s : Sub) (msgId : Nat) : Option Bool :=
  if s.ack = ackAuto then some true
  else if s.ack = ackClient then some (decide (s.msgId ≤ msgId))
  else if s.ack = ackClientIndividual then some (decide (msgId = s.msgId))
  else none

/-- `Subscription.IsNackedBy` (`server/client/subscription.go:53-57`). -/
def Sub.isNackedBy (s : Sub) (msgId : Nat) : Bool := decide (msgId = s.msgId)

/-- Dereference a subscription pointer. -/
def deref (heap : List Sub) (i : Nat) : Sub := heap.getD i default

/-- The loop of `SubscriptionList.Ack` (`server/client/subscription_list.go:71-81`): which elements stay,
for which ones the callback is called (in order), and whether the loop panicked (the rest then stays). -/
def ackLoop (heap : List Sub) (msgId : Nat) : List Nat → List Nat × List Nat × Bool
  | [] => ([], [], false)
  | i :: l =>
    match (deref heap i).isAckedBy msgId with
    | none => (i :: l, [], true)
    | some true =>
      let (kept, acked, p) := ackLoop heap msgId l
      (kept, i :: acked, p)
    | some false =>
      let (kept, acked, p) := ackLoop heap msgId l
      (i :: kept, acked, p)

/-- The loop of `SubscriptionList.Nack` (`server/client/subscription_list.go:87-97`). -/
def nackLoop (heap : List Sub) (msgId : Nat) : List Nat → List Nat × List Nat
  | [] => ([], [])
  | i :: l =>
    let (kept, nacked) := nackLoop heap msgId l
    if (deref heap i).isNackedBy msgId then (kept, i :: nacked) else (i :: kept, nacked)

end Stomp.Server
