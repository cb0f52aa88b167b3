import Verif.Proofs.Server.Redelivery
import Verif.Props.Server.Queues
/-! # C56: in which order messages that come back are delivered again -/
namespace Stomp.Server
open Stomp

/-- **C56** (part). In every execution in which at most one message of a queue is away from it at a time (handed out and not settled, or on its way back), the
messages leave the queue in the order in which they were sent to it: the sequence of messages handed out so far, followed by those stored, is, immediate repetitions aside, the
sequence of messages sent. So a message that comes back is delivered again before anything sent after it. Missing: several messages away at a time, for which it is false
(`C56_false`). -/
theorem C56_order_partial (cfg : Config) (es : List Sys.Ev) (s : Sys) (h : Sys.init.run cfg es = some s) (hc : s.crashed = false) (d : Bytes) (hd : Spec.IsQueue d)
    (hone : ∀ es1 es2 s1, es = es1 ++ es2 → Sys.init.run cfg es1 = some s1 → (Spec.outstanding d s1).length ≤ 1) :
    Spec.once ((Spec.observe (Spec.handed d) cfg Sys.init es ++ Spec.due d s).map (·.2) ++ (s.store.list d).map (·.tag)) =
      Spec.enqueued (Spec.observe (Spec.asked d) cfg Sys.init es) :=
  order_run ((isQueue_iff d).2 hd) h hc hone

/-- No message is sent to a queue twice: the sequence of messages sent has no repetitions, so every repetition among the messages handed out is a redelivery. -/
theorem C56_sent_once (cfg : Config) (es : List Sys.Ev) (s : Sys) (h : Sys.init.run cfg es = some s) (hc : s.crashed = false) (d : Bytes) :
    (Spec.enqueued (Spec.observe (Spec.asked d) cfg Sys.init es)).Nodup :=
  enqueued_nodup h hc d

/-- A client with two subscriptions in client mode to the same queue gets one message for each, and hangs up. -/
def backRun : List Sys.Ev :=
  [.accept, .conn 0 (.recv sampleConnect), .conn 0 (.frame true true), .flush 0, .proc,
   .conn 0 (.recv ⟨b!"SEND", [(b!"destination", b!"/queue/a")], [1]⟩), .conn 0 (.frame true true), .flush 0, .proc,
   .conn 0 (.recv ⟨b!"SEND", [(b!"destination", b!"/queue/a")], [2]⟩), .conn 0 (.frame true true), .flush 0, .proc,
   .conn 0 (.recv ⟨b!"SUBSCRIBE", [(b!"id", b!"1"), (b!"destination", b!"/queue/a"), (b!"ack", b!"client")], []⟩), .conn 0 (.frame true true),
   .flush 0, .proc, .push, .conn 0 (.sub true),
   .conn 0 (.recv ⟨b!"SUBSCRIBE", [(b!"id", b!"2"), (b!"destination", b!"/queue/a"), (b!"ack", b!"client")], []⟩), .conn 0 (.frame true true),
   .flush 0, .proc, .push, .conn 0 (.sub true),
   .conn 0 .readErr, .conn 0 .readClosed, .conn 0 .clean, .conn 0 (.cleanUnsub [0, 1]), .flush 0, .proc, .flush 0, .proc,
   .conn 0 .clean, .flush 0, .proc, .flush 0, .proc, .conn 0 .clean, .conn 0 .clean, .conn 0 .clean, .flush 0, .proc, .conn 0 .clean, .conn 0 .clean]

/-- Another client subscribes to the queue. -/
def againRun : List Sys.Ev :=
  [.accept, .conn 1 (.recv sampleConnect), .conn 1 (.frame true true), .flush 1, .proc,
   .conn 1 (.recv ⟨b!"SUBSCRIBE", [(b!"id", b!"1"), (b!"destination", b!"/queue/a"), (b!"ack", b!"client")], []⟩), .conn 1 (.frame true true), .flush 1, .proc, .push]

/-- **C56** fails: a client with two subscriptions to one queue gets the first message for one and the second message for the other, and hangs up. The server puts the messages back
one after the other, each to the front, so that the second one is now in front of the first; the next subscriber gets it first. No message was lost, no write failed and nothing
is pending. -/
theorem C56_false : ∃ es es' s s', Sys.init.run sampleCfg es = some s ∧ s.crashed = false ∧ s.run sampleCfg es' = some s' ∧ s'.crashed = false ∧
    (∀ k ∈ s.conns, k.stage = .closed ∧ k.wfail = false) ∧ s.reqCh = [] ∧ s.todo = [] ∧ Spec.outstanding b!"/queue/a" s = [] ∧
    Spec.enqueued (Spec.observe (Spec.asked b!"/queue/a") sampleCfg Sys.init es) = [⟨0, 0⟩, ⟨0, 1⟩] ∧
    (Spec.observe (Spec.handed b!"/queue/a") sampleCfg Sys.init es).map (·.2) = [⟨0, 0⟩, ⟨0, 1⟩] ∧
    (s.store.list b!"/queue/a").map (·.tag) = [⟨0, 1⟩, ⟨0, 0⟩] ∧
    Spec.observe (Spec.handed b!"/queue/a") sampleCfg s es' = [(⟨1, 0⟩, ⟨0, 1⟩)] :=
  ⟨backRun, againRun, _, _, rfl, by decide +kernel, rfl, by decide +kernel, by decide +kernel, by decide +kernel, by decide +kernel, by decide +kernel, by decide +kernel,
    by decide +kernel, by decide +kernel, by decide +kernel⟩

-- C56_order_partial: a client refuses the first of two messages and gets it again (`queueRun`); never more than one message is away.
example : ∃ s, Sys.init.run sampleCfg queueRun = some s ∧ s.crashed = false ∧ Spec.IsQueue b!"/queue/a" ∧
    (∀ es1 es2 s1, queueRun = es1 ++ es2 → Sys.init.run sampleCfg es1 = some s1 → (Spec.outstanding b!"/queue/a" s1).length ≤ 1) ∧
    (Spec.observe (Spec.handed b!"/queue/a") sampleCfg Sys.init queueRun).map (·.2) = [⟨0, 0⟩, ⟨0, 0⟩] ∧ (s.store.list b!"/queue/a").map (·.tag) = [⟨0, 1⟩] ∧
    Spec.enqueued (Spec.observe (Spec.asked b!"/queue/a") sampleCfg Sys.init queueRun) = [⟨0, 0⟩, ⟨0, 1⟩] := by
  refine ⟨_, rfl, by decide +kernel, by unfold Spec.IsQueue; decide +kernel, ?_, by decide +kernel, by decide +kernel, by decide +kernel⟩
  intro es1 es2 s1 he hr
  have key : ∀ n ∈ List.range (queueRun.length + 1), ((Sys.init.run sampleCfg (queueRun.take n)).map (fun s1 => decide ((Spec.outstanding b!"/queue/a" s1).length ≤ 1))).getD true = true := by
    decide +kernel
  have h1 : es1 = queueRun.take es1.length := by rw [he]; simp
  have h2 : es1.length ∈ List.range (queueRun.length + 1) := by rw [List.mem_range, he, List.length_append]; omega
  have h3 := key _ h2
  rw [← h1, hr] at h3
  simpa using h3

-- C56_sent_once: the same run, with two messages.
example : ∃ s, Sys.init.run sampleCfg queueRun = some s ∧ s.crashed = false ∧
    (Spec.enqueued (Spec.observe (Spec.asked b!"/queue/a") sampleCfg Sys.init queueRun)).length = 2 :=
  ⟨_, rfl, by decide +kernel, by decide +kernel⟩

end Stomp.Server
