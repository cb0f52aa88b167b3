import Verif.Model.Server.System
import Verif.Spec.Codec
/-!
# Specification of queues and topics

Independent of the model of the queue and topic packages: what a destination is asked for, what it hands out, and
which sequences of these are right.
-/
namespace Stomp.Server.Spec
open Stomp Stomp.Server

/-- What is observed along a run: `T` says what is seen when an event happens in a state. -/
def observe {α : Type} (T : Sys → Sys.Ev → List α) (cfg : Config) : Sys → List Sys.Ev → List α
  | _, [] => []
  | s, e :: es => T s e ++ (match s.step cfg e with | none => [] | some s => observe T cfg s es)

/-- The subscription a pointer points to. -/
def theSub (s : Sys) (r : SubRef) : Option Sub := s.conns[r.conn]?.bind (fun k => k.heap[r.idx]?)

/-- The destination a message is for. -/
def target (m : Msg) : Option Bytes := Stomp.Spec.firstValue m.frame.header b!"destination"

/-- What a queue can be asked for: to take a message (at the end, or at the front when it comes back), to serve a
subscription, to forget a subscription. -/
inductive QAsk
  | put (front : Bool) (t : Tag)
  | subscribe (r : SubRef)
  | unsubscribe (r : SubRef)
  deriving DecidableEq, Repr

/-- The request for destination `d` that the processor takes from its channel. -/
def asked (d : Bytes) (s : Sys) : Sys.Ev → List QAsk
  | .proc =>
    match s.reqCh with
    | .enqueue m :: _ => if target m = some d then [.put false m.tag] else []
    | .requeue (some m) :: _ => if target m = some d then [.put true m.tag] else []
    | .subscribe r :: _ => if (theSub s r).map (·.dest) = some d then [.subscribe r] else []
    | .unsubscribe r :: _ => if (theSub s r).map (·.dest) = some d then [.unsubscribe r] else []
    | _ => []
  | _ => []

/-- The message a channel send hands to a subscription of destination `d`, through the connection's channel of
subscriptions that have a message. -/
def handOver (d : Bytes) (s : Sys) : Delivery → List (SubRef × Tag)
  | .queue r =>
    match theSub s r with
    | none => []
    | some x => if x.dest = d then (match x.frame with | none => [] | some m => [(r, m.tag)]) else []
  | .topic _ _ _ => []

/-- The message handed to a subscription of queue `d` by an event. -/
def handed (d : Bytes) (s : Sys) : Sys.Ev → List (SubRef × Tag)
  | .push => match s.todo with | [] => [] | x :: _ => handOver d s x
  | _ => []

/-- What the processor is about to hand out for queue `d`. -/
def due (d : Bytes) (s : Sys) : List (SubRef × Tag) := s.todo.flatMap (handOver d s)

/-- A first-in first-out queue of messages serving a first-in first-out queue of subscriptions: `Queue i o p w` means that after
the requests `i` the messages `o` have been handed out, `p` are stored and `w` wait. -/
inductive Queue : List QAsk → List (SubRef × Tag) → List Tag → List SubRef → Prop
  | start : Queue [] [] [] []
  | enqueue {i o p t} : Queue i o p [] → Queue (i ++ [.put false t]) o (p ++ [t]) []
  | requeue {i o p t} : Queue i o p [] → Queue (i ++ [.put true t]) o (t :: p) []
  | serve {i o p r w f t} : Queue i o p (r :: w) → Queue (i ++ [.put f t]) (o ++ [(r, t)]) p w
  | wait {i o w r} : Queue i o [] w → Queue (i ++ [.subscribe r]) o [] (w ++ [r])
  | fetch {i o t p w r} : Queue i o (t :: p) w → Queue (i ++ [.subscribe r]) (o ++ [(r, t)]) p w
  | leave {i o p w r} : Queue i o p w → Queue (i ++ [.unsubscribe r]) o p (w.erase r)

/-- A destination that names a queue. -/
def IsQueue (d : Bytes) : Prop := b!"/queue" <+: d

/-- Everything is where the destinations say: `stored`, `waiting` and `handing` are the queue side, `joined`, `sending` and `written`
the topic side; nothing is dropped. -/
structure Kinds (s : Sys) : Prop where
  stored : ∀ d, ∀ m ∈ s.store.list d, IsQueue d ∧ target m = some d
  waiting : ∀ d, ∀ r ∈ s.queues.list d, IsQueue d ∧ ∃ x, theSub s r = some x ∧ x.dest = d
  handing : ∀ r, .queue r ∈ s.todo → ∃ x m, theSub s r = some x ∧ x.frame = some m ∧ IsQueue x.dest ∧ target m = some x.dest
  held : ∀ r x m, theSub s r = some x → x.frame = some m → IsQueue x.dest ∧ target m = some x.dest
  joined : ∀ d, ∀ r ∈ s.topics.list d, ¬ IsQueue d ∧ ∃ x, theSub s r = some x ∧ x.dest = d
  sending : ∀ d r m, .topic d r m ∈ s.todo → ¬ IsQueue d ∧ target m = some d ∧ ∃ x, theSub s r = some x ∧ x.dest = d
  written : ∀ (c : Nat) (k : Conn), s.conns[c]? = some k → ∀ m ∈ k.writeCh, ∃ d, target m = some d ∧ ¬ IsQueue d
  dropped : s.dropped = []

end Stomp.Server.Spec
