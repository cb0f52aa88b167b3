import Verif.Proofs.Client.Dismissed
import Verif.Props.Client.Failure
import Verif.Props.Joint
/-! # C66: `Unsubscribe` with the library's server -/
namespace Stomp.Joint
open Stomp

namespace Ex

def unsubFrame : Frame := ⟨b!"UNSUBSCRIBE", [(b!"id", b!"1"), (b!"receipt", b!"1")], []⟩

/-- Client 1 unsubscribes, the server gets the frame and its request processor has done its part. -/
def leaves : List Ev :=
  [.client 1 0 (.call (.unsubscribe 0 [])), .client 1 0 (.thread 1), .client 1 0 (.thread 1), .client 1 0 (.thread 1), .client 1 0 (.loopWrite true []),
   .client 1 0 (.thread 1), .client 1 0 (.thread 1), .server 0 (.flush 1), .server 0 .proc, .server 999 (.conn 1 (.recv unsubFrame)), .server 0 (.conn 1 (.frame true true)),
   .server 0 (.flush 1), .server 0 .proc]
/-- The timer of `waitWithTimeout` expires, `Unsubscribe` reports it. -/
def givesUp : List Ev := [.client 1 0 (.timeout 1), .client 1 0 (.thread 1), .client 1 0 (.thread 1)]
def stateLeft : State := (State.init.run Server.sampleCfg (events ++ leaves)).getD State.init
def left : Peer := (stateLeft.peers[1]?).getD ⟨Client.Ex.cfg, 0, hello, none, Client.Sys.init 0, []⟩

def stateUp : State := (State.init.run Server.sampleCfg (events ++ (leaves ++ givesUp))).getD State.init
def up : Peer := (stateUp.peers[1]?).getD ⟨Client.Ex.cfg, 0, hello, none, Client.Sys.init 0, []⟩

theorem sane_left : ∀ e ∈ leaves ++ givesUp, Spec.Sane e := by
  intro e he
  simp only [leaves, givesUp, List.mem_append, List.mem_cons, List.not_mem_nil, or_false] at he
  rcases he with he | he
  · rcases he with rfl | rfl | rfl | rfl | rfl | rfl | rfl | rfl | rfl | rfl | rfl | rfl | rfl <;> first | exact trivial | (intro k v hv; simp at hv)
  · rcases he with rfl | rfl | rfl <;> exact trivial

theorem run_some {cfg : Server.Config} {es : List Ev} (h : (State.init.run cfg es).isSome = true) : State.init.run cfg es = some ((State.init.run cfg es).getD State.init) := by
  cases e : State.init.run cfg es with
  | none => rw [e] at h; cases h
  | some _ => rfl

theorem reached_left : Spec.Reached Server.sampleCfg stateLeft := by
  refine ⟨⟨events ++ leaves, run_some (by decide +kernel), fun e he => ?_⟩, by decide +kernel⟩
  rcases List.mem_append.1 he with he | he
  · exact sane e he
  · exact sane_left e (List.mem_append_left _ he)

theorem reached_up : Spec.Reached Server.sampleCfg stateUp := by
  refine ⟨⟨events ++ (leaves ++ givesUp), run_some (by decide +kernel), fun e he => ?_⟩, by decide +kernel⟩
  rcases List.mem_append.1 he with he | he
  · exact sane e he
  · exact sane_left e he

end Ex

/-- **C66**. With this server `Unsubscribe` does not succeed while the connection lasts: in every execution of server and clients together in which the ids of a client are distinct, a call of
`Unsubscribe` (for a subscription that is not the one of a temporary queue) that has returned has reported an error of its own (the options, a subscription already given up, the time-out, the
connection lost), or `processLoop` of the connection has ended. -/
theorem C66_partial {cfg : Server.Config} {s : State} (h : Spec.Reached cfg s) {c : Nat} {p : Peer} (hp : s.peers[c]? = some p) (hd : Client.Spec.Distinct p.client)
    {i : Nat} {b : Client.Sub} (hb : p.client.subs[i]? = some b) {t : Nat} {r : Client.Req} (hr : .accepted t r ∈ p.client.trace) (hrc : r.chan = some b.chan)
    (hq : ∀ t r, .accepted t r ∈ p.client.trace → r.frame.command = b!"UNSUBSCRIBE" → r.frame.header.contains Hdr.replyTo ≠ some b.id)
    {u : Nat} {o : List Client.SubOpt} {x : Client.Res} (hu : Client.Spec.Returned p.client u (.unsubscribe i o) x) :
    x = .optionError ∨ x = .completedSubscription ∨ x = .unsubTimeout ∨ x = .closedUnexpectedly ∨ Client.Spec.Ending p.client := by
  have hi := inv_reached h
  obtain ⟨k, hk⟩ := hi.conn hp
  have hpi := hi.peer c p k hp hk
  obtain ⟨th, h1, h2, h3⟩ := hu
  by_cases hx : x = .completedSubscription
  · exact .inr (.inl hx)
  cases hg : x.givenUp with
  | true =>
    cases x <;> first | (cases hg; done) | simp
  | false =>
    refine .inr (.inr (.inr (.inr ?_)))
    rcases Client.unsub_dismissed hpi.run hd h1 h2 h3 hg hx hb with ⟨g, g1, g2, g3⟩ | e | ⟨r', g1, g2, g3⟩
    · exact absurd g3 (unanswered_sub h hp hd hb hr hrc g1 g2)
    · revert e
      unfold Client.Spec.Ending
      cases p.client.loop <;> simp [Client.LoopPc.ended]
    · obtain ⟨t', g4⟩ := Client.taken_accepted hpi.run g1
      obtain ⟨o', ho', h4⟩ := List.mem_filterMap.1 g4
      cases o' with
      | accepted t2 r2 =>
        cases h4
        exact absurd g3 (hq t' r' ho' g2)
      | _ => cases h4

/-- **C66** (false). `Unsubscribe` fails with a server that did all it was asked: the server has processed the UNSUBSCRIBE and has dropped the subscription, the client has read everything the server wrote,
and the call reports that there was no RECEIPT in time. -/
theorem C66_false : ∃ (s : State) (p : Peer) (k : Server.Conn) (b : Client.Sub), Spec.Reached Server.sampleCfg s ∧ s.peers[1]? = some p ∧ s.server.conns[1]? = some k ∧
    Client.Spec.Distinct p.client ∧ p.client.subs[0]? = some b ∧ .accepted 0 ⟨Ex.subFrame, some b.chan⟩ ∈ p.client.trace ∧ Ex.unsubFrame ∈ k.hist ∧ k.subs = [] ∧ k.subList = [] ∧
    k.outbox = [] ∧ s.server.todo = [] ∧ Spec.Idle p k ∧ Client.Spec.Returned p.client 1 (.unsubscribe 0 []) .unsubTimeout := by
  refine ⟨Ex.stateUp, Ex.up, (Ex.stateUp.server.conns[1]?).getD (Server.Conn.init 1), (Ex.up.client.subs[0]?).getD (.new [] false 0), Ex.reached_up, ?_, ?_,
    Client.distinct_of (by decide +kernel), ?_, ?_, ?_, ?_, ?_, ?_, ?_, ?_, (Ex.up.client.threads[1]?).getD ⟨.disconnect, .start, .none⟩, ?_, ?_, ?_⟩ <;> decide +kernel

/-- **C66** (false). The same while `Unsubscribe` waits. -/
theorem C66_false_waiting : ∃ (s : State) (p : Peer) (k : Server.Conn) (b : Client.Sub) (th : Client.Thread), Spec.Reached Server.sampleCfg s ∧ s.peers[1]? = some p ∧ s.server.conns[1]? = some k ∧
    Client.Spec.Distinct p.client ∧ p.client.subs[0]? = some b ∧ .accepted 0 ⟨Ex.subFrame, some b.chan⟩ ∈ p.client.trace ∧ Ex.unsubFrame ∈ k.hist ∧ k.subs = [] ∧ k.subList = [] ∧
    k.outbox = [] ∧ s.server.todo = [] ∧ Spec.Idle p k ∧ p.client.threads[1]? = some th ∧ th.call = .unsubscribe 0 [] ∧ ∀ x, th.pc ≠ .ret x := by
  refine ⟨Ex.stateLeft, Ex.left, (Ex.stateLeft.server.conns[1]?).getD (Server.Conn.init 1), (Ex.left.client.subs[0]?).getD (.new [] false 0),
    (Ex.left.client.threads[1]?).getD ⟨.disconnect, .start, .none⟩, Ex.reached_left, ?_, ?_, Client.distinct_of (by decide +kernel), ?_, ?_, ?_, ?_, ?_, ?_, ?_, ?_, ?_, ?_, ?_⟩
  all_goals first
    | decide +kernel
    | (intro x hx
       have : (Ex.left.client.threads[1]?.getD (⟨.disconnect, .start, .none⟩ : Client.Thread)).pc = .select := by decide +kernel
       rw [this] at hx
       cases hx)

theorem Ex.noTemp {s : Client.Sys} {k : Bytes} (h : s.trace.all (fun o => match o with
    | .accepted _ r => r.frame.command != b!"UNSUBSCRIBE" || r.frame.header.contains Hdr.replyTo != some k
    | _ => true) = true) (t : Nat) (r : Client.Req) (hr : .accepted t r ∈ s.trace) (hc : r.frame.command = b!"UNSUBSCRIBE") : r.frame.header.contains Hdr.replyTo ≠ some k := by
  have := List.all_eq_true.1 h _ hr
  simpa [hc] using this

open Ex in
-- C66_partial: the hypotheses hold when the call has given up.
example : Spec.Reached Server.sampleCfg stateUp ∧ stateUp.peers[1]? = some up ∧ Client.Spec.Distinct up.client ∧ ∃ b, up.client.subs[0]? = some b ∧
    .accepted 0 ⟨subFrame, some b.chan⟩ ∈ up.client.trace ∧
    (∀ t r, .accepted t r ∈ up.client.trace → r.frame.command = b!"UNSUBSCRIBE" → r.frame.header.contains Hdr.replyTo ≠ some b.id) ∧
    Client.Spec.Returned up.client 1 (.unsubscribe 0 []) .unsubTimeout := by
  refine ⟨reached_up, by decide +kernel, Client.distinct_of (by decide +kernel), (up.client.subs[0]?).getD (.new [] false 0), by decide +kernel, by decide +kernel,
    noTemp (by decide +kernel), (up.client.threads[1]?).getD ⟨.disconnect, .start, .none⟩, ?_, ?_, ?_⟩ <;> decide +kernel

end Stomp.Joint
