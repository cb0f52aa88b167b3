import Verif.Model.Client.System
import Verif.Spec.Codec
/-! # The life of a subscription of the client: the vocabulary of C96 -/
namespace Stomp.Client.Spec
open Stomp

/-- How far a subscription has come. -/
def stage : SubState → Nat
  | .active => 0
  | .closing => 1
  | .closed => 2

/-- Call `t` is a call of `Unsubscribe` on subscription `i`. -/
def UnsubCall (s : Sys) (t i : Nat) : Prop := ∃ th o, s.threads[t]? = some th ∧ th.call = .unsubscribe i o

/-- Call `t` has not begun, or has returned `ErrCompletedSubscription`. -/
def Barred (s : Sys) (t : Nat) : Prop := ∃ th, s.threads[t]? = some th ∧ (th.pc = .start ∨ th.pc = .ret .completedSubscription)

/-- The UNSUBSCRIBE frames for the id `k` among `l`. -/
def unsubscribes (k : Bytes) (l : List Frame) : List Frame :=
  l.filter fun f => decide (f.command = b!"UNSUBSCRIBE" ∧ Stomp.Spec.firstValue f.header b!"id" = some k)

end Stomp.Client.Spec
