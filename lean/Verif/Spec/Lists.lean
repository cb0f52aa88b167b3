import Verif.Model.Server.LinkedList
/-! # Specification: lists of subscriptions as sequences -/
namespace Stomp.Server.Spec
open Stomp Stomp.Server

/-- An ACK of number `n` concerns a subscription with this mode and this number. -/
def Acks (mode : Bytes) (own n : Nat) : Bool :=
  mode == b!"auto" || (mode == b!"client" && decide (own ≤ n)) || (mode == b!"client-individual" && own == n)

/-- The ack modes there are. -/
def KnownMode (mode : Bytes) : Prop := mode = b!"auto" ∨ mode = b!"client" ∨ mode = b!"client-individual"

/-- What a call does to the sequence of subscriptions in the list, and what it hands out. -/
def listCall (sub : Nat → Sub) (q : List Nat) : SList.Op → List Nat × List Nat
  | .add i => (q ++ [i], [])
  | .get => (q.drop 1, q.take 1)
  | .remove i => (q.filter (fun j => !(j == i)), [])
  | .find id =>
    match q.find? (fun j => (sub j).id == id) with
    | none => (q, [])
    | some i => (q.filter (fun j => !(j == i)), [i])
  | .ack n => (q.filter (fun j => !Acks (sub j).ack (sub j).msgId n), q.filter (fun j => Acks (sub j).ack (sub j).msgId n))
  | .nack n => (q.filter (fun j => !((sub j).msgId == n)), q.filter (fun j => (sub j).msgId == n))

/-- A sequence of calls. -/
def listCalls (sub : Nat → Sub) (q : List Nat) : List SList.Op → List Nat × List (List Nat)
  | [] => (q, [])
  | o :: os => ((listCalls sub (listCall sub q o).1 os).1, (listCall sub q o).2 :: (listCalls sub (listCall sub q o).1 os).2)

/-- The subscriptions in a list, from front to back. -/
def listed (s : SList) : List Nat := s.subs.elems.map (·.2)

end Stomp.Server.Spec
