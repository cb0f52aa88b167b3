import Verif.Model.Client.Read
/-! # Specification: what an application gets from `Subscription.Read` -/
namespace Stomp.Client.Spec
open Stomp Stomp.Client

/-- What the calls of `Read` on subscription `i` have returned, in order, `ErrCompletedSubscription` left out. -/
def readOf (i : Nat) : List (Nat × ReadRes) → List ReadRes
  | [] => []
  | (j, r) :: l => if j = i ∧ r ≠ .completed then r :: readOf i l else readOf i l

/-- The application receives from the channel `C` of subscription `i` only by `Read`. -/
def OnlyRead (i : Nat) (es : List REv) : Prop := REv.sys (.take i) ∉ es

/-- `Unsubscribe` has been called on subscription `i`. -/
def Unsubscribed (s : Sys) (i : Nat) : Prop := ∃ (t : Nat) (th : Thread) (o : List SubOpt), s.threads[t]? = some th ∧ th.call = .unsubscribe i o

end Stomp.Client.Spec
