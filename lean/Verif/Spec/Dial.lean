import Verif.Model.Client.Dial
/-! # What property C85 talks about: a network connection after some operations on it -/
namespace Stomp.Client.Spec
open Stomp

/-- Is the connection open after the operations. -/
def isOpen (ops : List NetOp) : Prop := .close ∉ ops

/-- The read deadline of the connection after the operations: the one set last. -/
def deadlineAfter : List NetOp → Option Nat → Option Nat
  | [], d => d
  | .readDeadline d :: ops, _ => deadlineAfter ops d
  | _ :: ops, d => deadlineAfter ops d

/-- Two connections look alike until time `d`. -/
def AlikeUntil (d : Nat) (a b : Net) : Prop :=
  a.isNetConn = b.isNetConn ∧ a.remote = b.remote ∧ a.writes = b.writes ∧
    a.incoming.takeWhile (fun x => decide (x.1 ≤ d)) = b.incoming.takeWhile (fun x => decide (x.1 ≤ d))

end Stomp.Client.Spec
