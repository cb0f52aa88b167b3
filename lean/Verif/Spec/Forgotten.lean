import Verif.Spec.Subscriptions
import Verif.Model.Server.System
/-! # What the server still knows about a connection that has ended -/
namespace Stomp.Server.Spec
open Stomp

/-- The connection has ended; the processor has no request about one of its subscriptions before it, and is not about to hand it a message. -/
structure Over (s : Sys) (c : Nat) : Prop where
  ended : ∃ k, s.conns[c]? = some k ∧ k.stage = .closed
  asked : ∀ i, .subscribe ⟨c, i⟩ ∉ s.reqCh ∧ .unsubscribe ⟨c, i⟩ ∉ s.reqCh
  queue : ∀ i, .queue ⟨c, i⟩ ∉ s.todo
  topic : ∀ d i m, .topic d ⟨c, i⟩ m ∉ s.todo

/-- No queue has a subscription of the connection in its list. -/
def NoQueueHas (s : Sys) (c : Nat) : Prop := ∀ d, ∀ r ∈ s.queues.list d, r.conn ≠ c

/-- No topic has a subscription of the connection in its list. -/
def NoTopicHas (s : Sys) (c : Nat) : Prop := ∀ d, ∀ r ∈ s.topics.list d, r.conn ≠ c

/-- The requests about a subscription: `true` to put it into its list, `false` to take it out. -/
def turns (r : SubRef) (l : List Req) : List Bool :=
  l.filterMap (fun | .subscribe x => if x = r then some true else none | .unsubscribe x => if x = r then some false else none | _ => none)

/-- The client does not give a subscription up before it ends, or it uses no id twice. -/
def Simple (fs : List Frame) : Prop := (∀ f ∈ fs, f.command ≠ b!"UNSUBSCRIBE") ∨ (idsAsked fs).Nodup

end Stomp.Server.Spec
