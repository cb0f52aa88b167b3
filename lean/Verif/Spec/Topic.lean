import Verif.Spec.Queue
import Verif.Spec.Session
/-!
# Specification of topics

Independent of the model of the topic package: what a topic is asked for, what appears in the write channels of the connections, and which
sequences of these are right.
-/
namespace Stomp.Server.Spec
open Stomp Stomp.Server

/-- What a topic can be asked for: to send a message to its subscriptions, to add a subscription, to remove one. -/
inductive TAsk
  | cast (m : Msg)
  | subscribe (r : SubRef)
  | unsubscribe (r : SubRef)
  deriving DecidableEq, Repr

/-- The request for destination `d` that the processor takes from its channel. -/
def askedTopic (d : Bytes) (s : Sys) : Sys.Ev → List TAsk
  | .proc =>
    match s.reqCh with
    | .enqueue m :: _ => if target m = some d then [.cast m] else []
    | .subscribe r :: _ => if (theSub s r).map (·.dest) = some d then [.subscribe r] else []
    | .unsubscribe r :: _ => if (theSub s r).map (·.dest) = some d then [.unsubscribe r] else []
    | _ => []
  | _ => []

/-- The messages that are in the write channels of the connections in `s'` but not in `s`, with the connection. -/
def newWrites (s s' : Sys) : List (Nat × Msg) :=
  (List.range s.conns.length).flatMap (fun c =>
    match s.conns[c]?, s'.conns[c]? with
    | some k, some k' => (k'.writeCh.drop k.writeCh.length).map (fun m => (c, m))
    | _, _ => [])

/-- The messages for destination `d` that an event puts into the write channels of the connections. -/
def given (d : Bytes) (cfg : Config) (s : Sys) (e : Sys.Ev) : List (Nat × Msg) :=
  match s.step cfg e with
  | none => []
  | some s' => (newWrites s s').filter (fun x => decide (target x.2 = some d))

/-- A topic: every message goes to the subscriptions of that moment, in the order in which they subscribed. `Topic i o w` means that the requests `i` ask
for the deliveries `o`, and that `w` are subscribed. -/
inductive Topic : List TAsk → List (SubRef × Msg) → List SubRef → Prop
  | start : Topic [] [] []
  | join {i o w r} : Topic i o w → Topic (i ++ [.subscribe r]) o (w ++ [r])
  | leave {i o w r} : Topic i o w → Topic (i ++ [.unsubscribe r]) o (w.erase r)
  | cast {i o w m} : Topic i o w → Topic (i ++ [.cast m]) (o ++ w.map (fun r => (r, m))) w

/-- `g` is the message `m` for the subscription with this id: its `subscription` header says so, and it is otherwise the same. -/
structure AddressedTo (id : Bytes) (m g : Msg) : Prop where
  tag : g.tag = m.tag
  command : g.frame.command = m.frame.command
  body : g.frame.body = m.frame.body
  subscription : hdr g.frame b!"subscription" = some id
  headers : g.frame.header.filter (fun e => decide (e.1 ≠ b!"subscription")) = m.frame.header.filter (fun e => decide (e.1 ≠ b!"subscription"))

/-- The delivery of `x.2` to the subscription `x.1` is the message `y.2` in the write channel of the connection `y.1`. -/
def Handed (d : Bytes) (s : Sys) (x : SubRef × Msg) (y : Nat × Msg) : Prop :=
  y.1 = x.1.conn ∧ ∃ u, theSub s x.1 = some u ∧ u.dest = d ∧ AddressedTo u.id x.2 y.2

/-- Two lists of the same length, related element by element. -/
inductive Matched {α β : Type} (R : α → β → Prop) : List α → List β → Prop
  | nil : Matched R [] []
  | snoc {a b x y} : Matched R a b → R x y → Matched R (a ++ [x]) (b ++ [y])

/-- The deliveries for destination `d` that the processor still has to do for the message it has in hand. -/
def stillToDo (d : Bytes) (s : Sys) : List (SubRef × Msg) :=
  s.todo.filterMap (fun | .topic _ r m => if target m = some d then some (r, m) else none | .queue _ => none)

end Stomp.Server.Spec
