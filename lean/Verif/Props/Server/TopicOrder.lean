import Verif.Proofs.Server.TopicOrder
import Verif.Proofs.Server.SubFrom
import Verif.Props.Server.Topics
/-! # The order of messages on a topic (C62) -/
namespace Stomp.Server
open Stomp

theorem notQueue {d : Bytes} (hd : ¬Spec.IsQueue d) : isQueueDestination d = false := by
  cases hq : isQueueDestination d with
  | false => rfl
  | true => exact absurd ((isQueue_iff d).1 hq) hd

/-- A list without duplicates has no two elements in two orders. -/
theorem sameOrder_of {α : Type} {L l l' : List α} (hn : L.Nodup) (h : l.Sublist L) (h' : l'.Sublist L) : Spec.SameOrder l l' := by
  intro x y h1 h2
  have h1 := h1.trans h
  have h2 := h2.trans h'
  clear h h'
  induction L with
  | nil => cases h1
  | cons a L ih =>
    obtain ⟨ha, hn⟩ := List.nodup_cons.1 hn
    cases h1 with
    | cons _ h1 =>
      cases h2 with
      | cons _ h2 => exact ih hn h1 h2
      | cons_cons _ h2 => exact ha (h1.subset (by simp))
    | cons_cons _ h1 =>
      cases h2 with
      | cons _ h2 => exact ha (h2.subset (by simp))
      | cons_cons _ h2 => exact ha (h1.subset (by simp))

theorem written_copy {cfg : Config} {es : List Sys.Ev} {s : Sys} (h : Sys.init.run cfg es = some s) (hc : s.crashed = false) {c : Nat} {k : Conn}
    (hk : s.conns[c]? = some k) {w : Wr} (hw : w ∈ k.out) {f : Frame} (hf : w.frame = some f) (hm : f.command = b!"MESSAGE") :
    ∃ t, w.tag = some t ∧ Spec.CopyOf s t f := by
  obtain ⟨ces, hr, henv⟩ := conn_run h hc hk
  obtain ⟨t, ht⟩ := messageTagged_run hr henv w hw f hf hm
  obtain ⟨f', hf', ⟨p, o, hp, ho, hot, hcmd, hbody, hoth⟩, _⟩ := written_run h hc c k hk w hw t ht
  rw [hf] at hf'; injection hf' with hf'; subst hf'
  exact ⟨t, ht, hm, p, o, hp, ho, hot, hbody, hoth⟩

/-- **C62**, the server. For every destination that does not name a queue, in every execution, the messages the topic sends are in one order: none of them is in it twice, the messages
of every sender are in the order in which the sender sent them, and what has been written to any connection for any of its subscriptions follows this order, without a
message twice; and every MESSAGE frame written for the destination and the subscription is a copy of such a message. -/
theorem C62_topic_order (cfg : Config) (es : List Sys.Ev) (s : Sys) (h : Sys.init.run cfg es = some s) (hc : s.crashed = false) (d : Bytes) (hd : ¬Spec.IsQueue d) :
    (Spec.broadcast d cfg es).Nodup ∧
    (∀ (c : Nat) (k : Conn), s.conns[c]? = some k → ((Spec.broadcast d cfg es).filter (fun t => decide (t.src = c))).Sublist ((Spec.messages c 0 k.effective).map (·.tag))) ∧
    ∀ (c : Nat) (k : Conn), s.conns[c]? = some k → ∀ id : Bytes, (Spec.writtenTo d id k.out).Sublist (Spec.broadcast d cfg es) ∧
      ∀ w ∈ k.out, ∀ f, w.frame = some f → f.command = b!"MESSAGE" → Spec.hdr f b!"destination" = some d → Spec.hdr f b!"subscription" = some id →
        ∃ t, Spec.writtenFor d id w = some t ∧ Spec.CopyOf s t f := by
  refine ⟨broadcast_nodup h hc d, fun c k hk => broadcast_sent h hc d hk, fun c k hk id => ⟨?_, ?_⟩⟩
  · have h1 := (order_run_topic (notQueue hd) h hc).2 c k hk id
    unfold course at h1
    rw [List.append_assoc] at h1
    exact (List.sublist_append_left _ _).trans h1
  · intro w hw f hf hm h1 h2
    obtain ⟨t, ht, hcp⟩ := written_copy h hc hk hw hf hm
    refine ⟨t, ?_, hcp⟩
    unfold Spec.writtenFor
    rw [hf]
    exact (if_pos ⟨h1, h2⟩).trans ht

/-- **C62**, two subscribers. Any two subscriptions to a topic, of the same or of different connections, get the messages they both get in the same order; and no subscription gets a message twice. -/
theorem C62_agree (cfg : Config) (es : List Sys.Ev) (s : Sys) (h : Sys.init.run cfg es = some s) (hc : s.crashed = false) (d : Bytes) (hd : ¬Spec.IsQueue d)
    (c c' : Nat) (k k' : Conn) (hk : s.conns[c]? = some k) (hk' : s.conns[c']? = some k') (id id' : Bytes) :
    Spec.SameOrder (Spec.writtenTo d id k.out) (Spec.writtenTo d id' k'.out) ∧ (Spec.writtenTo d id k.out).Nodup := by
  obtain ⟨h1, _, h2⟩ := C62_topic_order cfg es s h hc d hd
  exact ⟨sameOrder_of h1 (h2 c k hk id).1 (h2 c' k' hk' id').1, (h2 c k hk id).1.nodup h1⟩

-- Two senders and two subscribers, the second of which subscribes twice, once late: the requests of the senders are handled in another order than they were received.
def orderRun : List Sys.Ev :=
  [.accept, .accept, .accept, .accept] ++
  [0, 1, 2, 3].flatMap (fun c => [.conn c (.recv sampleConnect), .conn c (.frame true true), .flush c, .proc]) ++
  [.conn 2 (.recv ⟨b!"SUBSCRIBE", [(b!"id", b!"s"), (b!"destination", b!"/topic/a")], []⟩), .conn 2 (.frame true true), .flush 2, .proc,
   .conn 3 (.recv ⟨b!"SUBSCRIBE", [(b!"id", b!"x"), (b!"destination", b!"/topic/a")], []⟩), .conn 3 (.frame true true), .flush 3, .proc,
   .conn 0 (.recv ⟨b!"SEND", [(b!"destination", b!"/topic/a")], [1]⟩), .conn 0 (.frame true true),
   .conn 1 (.recv ⟨b!"SEND", [(b!"destination", b!"/topic/a")], [2]⟩), .conn 1 (.frame true true), .flush 1, .flush 0,
   .conn 1 (.recv ⟨b!"SEND", [(b!"destination", b!"/topic/a")], [3]⟩), .conn 1 (.frame true true),
   .proc, .push, .push, .proc, .push, .push,
   .conn 3 (.recv ⟨b!"SUBSCRIBE", [(b!"id", b!"y"), (b!"destination", b!"/topic/a")], []⟩), .conn 3 (.frame true true), .flush 3, .proc,
   .flush 1, .proc, .push, .push, .push,
   .conn 2 (.wr true), .conn 2 (.wr true), .conn 3 (.wr true), .conn 3 (.wr true), .conn 3 (.wr true), .conn 3 (.wr true)]

example : (Sys.init.run sampleCfg orderRun).map (fun s => (s.crashed, Spec.broadcast b!"/topic/a" sampleCfg orderRun,
      s.conns.map (fun k => (Spec.messages k.me 0 k.effective).map (·.tag)))) =
    some (false, [⟨1, 0⟩, ⟨0, 0⟩, ⟨1, 1⟩], [[⟨0, 0⟩], [⟨1, 0⟩, ⟨1, 1⟩], [], []]) := by decide +kernel

example : (Sys.init.run sampleCfg orderRun).map (fun s =>
      ((s.conns[2]?.map (fun k => (k.out.length, Spec.writtenTo b!"/topic/a" b!"s" k.out))),
       (s.conns[3]?.map (fun k => (k.out.length, Spec.writtenTo b!"/topic/a" b!"x" k.out, Spec.writtenTo b!"/topic/a" b!"y" k.out))))) =
    some (some (3, [⟨1, 0⟩, ⟨0, 0⟩]), some (5, [⟨1, 0⟩, ⟨0, 0⟩, ⟨1, 1⟩], [⟨1, 1⟩])) := by decide +kernel

example : ¬Spec.IsQueue b!"/topic/a" := by unfold Spec.IsQueue; decide +kernel

end Stomp.Server
