import Verif.Proofs.Server.QueueOrder
import Verif.Props.Server.Queues
import Verif.Props.Server.TopicOrder
/-! # The order in which consumers get the messages of a queue (C63) -/
namespace Stomp.Server
open Stomp

/-- **C63**, what is written. In every execution, for every queue: the messages written to a connection for the queue follow, in order and not more often, those that the queue handed out to the
subscriptions of the connection; every MESSAGE frame written for the queue is a copy of such a message. -/
theorem C63_follows (cfg : Config) (es : List Sys.Ev) (s : Sys) (h : Sys.init.run cfg es = some s) (hc : s.crashed = false) (d : Bytes) (hd : Spec.IsQueue d)
    (c : Nat) (k : Conn) (hk : s.conns[c]? = some k) :
    (Spec.writtenOn d k.out).Sublist (Spec.handedTo d c cfg es) ∧
    ∀ w ∈ k.out, ∀ f, w.frame = some f → f.command = b!"MESSAGE" → Spec.hdr f b!"destination" = some d → ∃ t, Spec.writtenOf d w = some t ∧ Spec.CopyOf s t f := by
  refine ⟨(List.sublist_append_left _ _).trans (handed_run ((isQueue_iff d).2 hd) h hc c k hk), ?_⟩
  intro w hw f hf hm h1
  obtain ⟨t, ht, hcp⟩ := written_copy h hc hk hw hf hm
  refine ⟨t, ?_, hcp⟩
  unfold Spec.writtenOf
  rw [hf]
  exact (if_pos h1).trans ht

theorem putTags_enqueued {i : List Spec.QAsk} (hn : ∀ a ∈ i, Spec.isRequeue a = false) : Spec.putTags i = Spec.enqueued i := by
  induction i with
  | nil => rfl
  | cons a i ih =>
    have h1 := ih (fun a ha => hn a (List.mem_cons_of_mem _ ha))
    have h2 := hn a List.mem_cons_self
    unfold Spec.putTags Spec.enqueued at h1 ⊢
    rw [List.filterMap_cons, List.filterMap_cons, h1]
    cases a with
    | put front t =>
      cases front with
      | false => rfl
      | true => cases h2
    | _ => rfl

theorem handedTo_sublist (d : Bytes) (c : Nat) (cfg : Config) (es : List Sys.Ev) :
    (Spec.handedTo d c cfg es).Sublist ((Spec.observe (Spec.handed d) cfg Sys.init es).map (·.2)) := by
  unfold Spec.handedTo
  induction Spec.observe (Spec.handed d) cfg Sys.init es with
  | nil => exact List.Sublist.refl _
  | cons e l ih =>
    rw [List.filterMap_cons, List.map_cons]
    unfold Spec.toConn
    split
    · exact ih.cons _
    · rename_i t ht
      split at ht
      · injection ht with ht; subst ht; exact ih.cons_cons _
      · cases ht

/-- In a list without repetitions the parts for two connections have nothing in common. -/
theorem toConn_disjoint {l : List (SubRef × Tag)} (hn : (l.map (·.2)).Nodup) {c c' : Nat} (hne : c ≠ c') {t : Tag} (h : t ∈ l.filterMap (Spec.toConn c)) :
    t ∉ l.filterMap (Spec.toConn c') := by
  intro h'
  obtain ⟨x, hx, hxt⟩ := List.mem_filterMap.1 h
  obtain ⟨y, hy, hyt⟩ := List.mem_filterMap.1 h'
  unfold Spec.toConn at hxt hyt
  split at hxt
  · rename_i h1
    split at hyt
    · rename_i h2
      injection hxt with hxt; injection hyt with hyt
      obtain ⟨i, hi⟩ := List.getElem?_of_mem hx
      obtain ⟨j, hj⟩ := List.getElem?_of_mem hy
      have hi' : (l.map (·.2))[i]? = some t := by rw [List.getElem?_map, hi, ← hxt]; rfl
      have hj' : (l.map (·.2))[j]? = some t := by rw [List.getElem?_map, hj, ← hyt]; rfl
      have hij : i = j := by
        have hil := (List.getElem?_eq_some_iff.1 hi').1
        exact (List.getElem?_inj hil hn).1 (hi'.trans hj'.symm)
      subst hij
      rw [hi] at hj; injection hj with hj
      rw [← hj] at h2
      exact hne (h1.symm.trans h2)
    · cases hyt
  · cases hxt

/-- **C63.** In every execution in which no message comes back to the queue: the messages written to a connection for the queue are in the order in which they were sent to it, without
repetition; those of one sender are in the order of its SEND frames; and no message is written to two connections. -/
theorem C63_order (cfg : Config) (es : List Sys.Ev) (s : Sys) (h : Sys.init.run cfg es = some s) (hc : s.crashed = false) (d : Bytes) (hd : Spec.IsQueue d)
    (hn : ∀ a ∈ Spec.observe (Spec.asked d) cfg Sys.init es, Spec.isRequeue a = false) :
    (Spec.sentTo d cfg es).Nodup ∧
    (∀ (c : Nat) (k : Conn), s.conns[c]? = some k → ((Spec.sentTo d cfg es).filter (fun t => decide (t.src = c))).Sublist ((Spec.messages c 0 k.effective).map (·.tag))) ∧
    (∀ (c : Nat) (k : Conn), s.conns[c]? = some k → (Spec.writtenOn d k.out).Sublist (Spec.sentTo d cfg es)) ∧
    ∀ (c c' : Nat) (k k' : Conn), c ≠ c' → s.conns[c]? = some k → s.conns[c']? = some k' → ∀ t, t ∈ Spec.writtenOn d k.out → t ∉ Spec.writtenOn d k'.out := by
  have hnd : (Spec.sentTo d cfg es).Nodup := enqueued_nodup h hc d
  have hsub : ((Spec.observe (Spec.handed d) cfg Sys.init es).map (·.2)).Sublist (Spec.sentTo d cfg es) := by
    have h1 := C36_order cfg es s h hc d hd hn
    rw [putTags_enqueued hn, List.map_append, List.append_assoc] at h1
    unfold Spec.sentTo
    rw [← h1]
    exact List.sublist_append_left _ _
  refine ⟨hnd, fun c k hk => sentTo_sent h hc d hk, ?_, ?_⟩
  · intro c k hk
    exact ((C63_follows cfg es s h hc d hd c k hk).1.trans (handedTo_sublist d c cfg es)).trans hsub
  · intro c c' k k' hne hk hk' t ht ht'
    have h1 := (C63_follows cfg es s h hc d hd c k hk).1.subset ht
    have h2 := (C63_follows cfg es s h hc d hd c' k' hk').1.subset ht'
    exact toConn_disjoint (hsub.nodup hnd) hne h1 h2

-- Three messages for two consumers, one of which has two subscriptions.
def shareRun : List Sys.Ev :=
  [.accept, .accept, .accept] ++
  [0, 1, 2].flatMap (fun c => [.conn c (.recv sampleConnect), .conn c (.frame true true), .flush c, .proc]) ++
  [.conn 1 (.recv ⟨b!"SUBSCRIBE", [(b!"id", b!"s"), (b!"destination", b!"/queue/a")], []⟩), .conn 1 (.frame true true), .flush 1, .proc,
   .conn 2 (.recv ⟨b!"SUBSCRIBE", [(b!"id", b!"x"), (b!"destination", b!"/queue/a")], []⟩), .conn 2 (.frame true true), .flush 2, .proc,
   .conn 2 (.recv ⟨b!"SUBSCRIBE", [(b!"id", b!"y"), (b!"destination", b!"/queue/a"), (b!"ack", b!"client")], []⟩), .conn 2 (.frame true true), .flush 2, .proc] ++
  [1, 2, 3].flatMap (fun n => [.conn 0 (.recv ⟨b!"SEND", [(b!"destination", b!"/queue/a")], [n]⟩), .conn 0 (.frame true true), .flush 0, .proc, .push]) ++
  [.conn 2 (.sub true), .flush 2, .conn 2 (.sub true), .conn 1 (.sub true), .flush 1]

example : (Sys.init.run sampleCfg shareRun).map (fun s => (s.crashed, Spec.sentTo b!"/queue/a" sampleCfg shareRun, Spec.handedTo b!"/queue/a" 2 sampleCfg shareRun,
      s.conns.map (fun k => Spec.writtenOn b!"/queue/a" k.out))) =
    some (false, [⟨0, 0⟩, ⟨0, 1⟩, ⟨0, 2⟩], [⟨0, 1⟩, ⟨0, 2⟩], [[], [⟨0, 0⟩], [⟨0, 1⟩, ⟨0, 2⟩]]) := by decide +kernel

example : (∀ a ∈ Spec.observe (Spec.asked b!"/queue/a") sampleCfg Sys.init shareRun, Spec.isRequeue a = false) ∧ Spec.IsQueue b!"/queue/a" :=
  ⟨by decide +kernel, by unfold Spec.IsQueue; decide +kernel⟩

end Stomp.Server
