import Verif.Proofs.Server.OpenSubs
import Verif.Props.Server.Conservation
/-!
# C54: messages are for the subscriptions the client has
-/
namespace Stomp.Server
open Stomp
open Stomp.Spec (firstValue)

/-- **C54** (part). In every execution, whenever the server writes a MESSAGE frame of a queue to a client, the subscription named in it is open after the
frames of the client processed so far; and if the client has not asked for the same id twice, that subscription is for the destination of the message.
Missing: messages of topics (`C54_false_topic`), and clients that use an id again (`C54_false_reuse`). -/
theorem C54_queue_partial (cfg : Config) (es : List Sys.Ev) (s s' : Sys) (h : Sys.init.run cfg es = some s) (hc : s.crashed = false)
    (e : Sys.Ev) (hs : s.step cfg e = some s') (hc' : s'.crashed = false) (c : Nat) (k k' : Conn) (hk : s.conns[c]? = some k) (hk' : s'.conns[c]? = some k')
    (l : List Wr) (ho : k'.out = k.out ++ l) (w : Wr) (hw : w ∈ l) (g : Frame) (hg : w.frame = some g) (hm : g.command = b!"MESSAGE")
    (hq : ∃ d, Spec.hdr g b!"destination" = some d ∧ Spec.IsQueue d) :
    ∃ i d, Spec.hdr g b!"subscription" = some i ∧ (i, d) ∈ Spec.openSubs k.hist ∧
      ((Spec.idsAsked k.hist).Nodup → Spec.hdr g b!"destination" = some d) := by
  obtain ⟨ces, hr, henv⟩ := conn_run h hc hk
  have hgm := run_inv (P := fun _ => True) (fun _ _ _ _ _ _ _ _ => trivial) ces k henv trivial hr
  have ha := addr_run h hc
  have hsi := (sys_induction (P := fun _ => True) trivial (fun _ _ _ _ _ _ => trivial) es s h hc).1
  have hst := (sys_step hsi.refs hs).2.resolve_left (by rw [hc']; decide)
  rcases conns_evol hst hk' with ⟨h1, _⟩ | ⟨k0, h0, ⟨ce, he, hcs⟩ | hO⟩
  · rw [hk] at h1; cases h1
  · rw [hk] at h0; injection h0 with h0; subst h0
    obtain ⟨hrun, ⟨m, n, h2, rfl⟩ | ⟨i, j, m, n, h2, h3, h4, rfl⟩⟩ := message_step hgm.1 hgm.2.1 (step_of _ _ _ _ hcs) ho hw hg hm
    · obtain ⟨i, _, h6⟩ := ha.wr c k hk m h2
      obtain ⟨d, hd, hqd⟩ := hq
      have hd : firstValue m.frame.header Hdr.destination = some d :=
        (firstValue_alloc m n none _ (by decide) (by decide) (by decide)).symm.trans hd
      rw [h6.2.1] at hd; injection hd with hd
      rw [← isQueue_iff, ← hd, h6.2.2] at hqd; cases hqd
    · have h7 := (ha.core c k hk).heap i m h3
      have hsub : Spec.hdr (m.alloc n (some (deref k.heap i).ack)).frame b!"subscription" = some (deref k.heap i).id :=
        (firstValue_alloc m n _ _ (by decide) (by decide) (by decide)).trans h7.1
      have hdst : Spec.hdr (m.alloc n (some (deref k.heap i).ack)).frame b!"destination" = some (deref k.heap i).dest :=
        (firstValue_alloc m n _ _ (by decide) (by decide) (by decide)).trans h7.2.1
      have hi := openInv_run hr
      have hso := subsOk_run hr
      have hmem := AMap.mem_of_get? h4
      have hj := hso.ids _ hmem
      refine ⟨_, (deref k.heap j).dest, hsub, ?_, fun hn => ?_⟩
      · rw [← hi.subs hrun]
        exact List.mem_map.2 ⟨_, hmem, rfl⟩
      · rw [hdst]
        have hil : i < k.heap.length := by
          refine (hsi.loc c k hk).idx i ?_
          unfold Core.tok
          have := count_pos_iff.2 h2
          show 0 < k.subCh.count i + _ + _; omega
        have hn : (k.heap.map (·.id)).Nodup := by
          have : Spec.idsAsked k.hist = k.heap.map (·.id) := by
            unfold Spec.idsAsked; rw [← hi.heap hrun, List.map_map]; rfl
          rw [← this]; exact hn
        have hij : i = j := by
          have h8 : (k.heap.map (·.id))[i]? = (k.heap.map (·.id))[j]? := by
            have e1 := hj.2
            unfold deref at e1
            rw [List.getD_eq_getElem?_getD, List.getD_eq_getElem?_getD, List.getElem?_eq_getElem hil, List.getElem?_eq_getElem hj.1] at e1
            rw [List.getElem?_map, List.getElem?_map, List.getElem?_eq_getElem hil, List.getElem?_eq_getElem hj.1]
            exact congrArg some e1.symm
          exact (List.getElem?_inj (by simpa using hil) hn).1 h8
        rw [hij]
  · rw [hk] at h0; injection h0 with h0; subst h0
    rw [hO.out] at ho
    have := List.append_cancel_left ((List.append_nil _).trans ho)
    rw [← this] at hw; cases hw

/-- **C54** (part, for topics too). In every execution, whenever the server writes a MESSAGE frame to a client, the subscription named in it is one the client has asked for,
with the destination of the message, in the frames processed so far. Missing: that the subscription has not been given up (`C54_false_topic`, `C54_false_reuse`). -/
theorem C54_asked_partial (cfg : Config) (es : List Sys.Ev) (s s' : Sys) (h : Sys.init.run cfg es = some s) (hc : s.crashed = false)
    (e : Sys.Ev) (hs : s.step cfg e = some s') (hc' : s'.crashed = false) (c : Nat) (k k' : Conn) (hk : s.conns[c]? = some k) (hk' : s'.conns[c]? = some k')
    (l : List Wr) (ho : k'.out = k.out ++ l) (w : Wr) (hw : w ∈ l) (g : Frame) (hg : w.frame = some g) (hm : g.command = b!"MESSAGE") :
    ∃ i d, Spec.hdr g b!"subscription" = some i ∧ Spec.hdr g b!"destination" = some d ∧ (i, d) ∈ k.hist.filterMap Spec.opens := by
  obtain ⟨ces, hr, henv⟩ := conn_run h hc hk
  have hgm := run_inv (P := fun _ => True) (fun _ _ _ _ _ _ _ _ => trivial) ces k henv trivial hr
  have ha := addr_run h hc
  have hsi := (sys_induction (P := fun _ => True) trivial (fun _ _ _ _ _ _ => trivial) es s h hc).1
  have hst := (sys_step hsi.refs hs).2.resolve_left (by rw [hc']; decide)
  have asked : k.stage = .run → ∀ i, i < k.heap.length → ((deref k.heap i).id, (deref k.heap i).dest) ∈ k.hist.filterMap Spec.opens := fun hrun i hi => by
    rw [← (openInv_run hr).heap hrun]
    refine List.mem_map.2 ⟨deref k.heap i, ?_, rfl⟩
    unfold deref
    rw [List.getD_eq_getElem?_getD, List.getElem?_eq_getElem hi]
    exact List.getElem_mem hi
  rcases conns_evol hst hk' with ⟨h1, _⟩ | ⟨k0, h0, ⟨ce, he, hcs⟩ | hO⟩
  · rw [hk] at h1; cases h1
  · rw [hk] at h0; injection h0 with h0; subst h0
    obtain ⟨hrun, ⟨m, n, h2, rfl⟩ | ⟨i, j, m, n, h2, h3, h4, rfl⟩⟩ := message_step hgm.1 hgm.2.1 (step_of _ _ _ _ hcs) ho hw hg hm
    · obtain ⟨i, hi, h6⟩ := ha.wr c k hk m h2
      exact ⟨_, _, (firstValue_alloc m n none _ (by decide) (by decide) (by decide)).trans h6.1,
        (firstValue_alloc m n none _ (by decide) (by decide) (by decide)).trans h6.2.1, asked hrun i hi⟩
    · have h7 := (ha.core c k hk).heap i m h3
      have hil : i < k.heap.length := by
        refine (hsi.loc c k hk).idx i ?_
        unfold Core.tok
        have := count_pos_iff.2 h2
        show 0 < k.subCh.count i + _ + _; omega
      exact ⟨_, _, (firstValue_alloc m n _ _ (by decide) (by decide) (by decide)).trans h7.1,
        (firstValue_alloc m n _ _ (by decide) (by decide) (by decide)).trans h7.2.1, asked hrun i hil⟩
  · rw [hk] at h0; injection h0 with h0; subst h0
    rw [hO.out] at ho
    have := List.append_cancel_left ((List.append_nil _).trans ho)
    rw [← this] at hw; cases hw

/-- Two connected clients, and the first has subscribed to a destination with id 1. -/
def subscribedRun (d : Bytes) : List Sys.Ev :=
  [.accept, .conn 0 (.recv sampleConnect), .conn 0 (.frame true true), .flush 0, .proc,
   .accept, .conn 1 (.recv sampleConnect), .conn 1 (.frame true true), .flush 1, .proc,
   .conn 0 (.recv ⟨b!"SUBSCRIBE", [(b!"id", b!"1"), (b!"destination", d)], []⟩), .conn 0 (.frame true true), .flush 0, .proc]

/-- The second client sends a message to the destination, and the server's processor gives it to the subscription. -/
def sentTo (d : Bytes) : List Sys.Ev :=
  [.conn 1 (.recv ⟨b!"SEND", [(b!"destination", d)], [1]⟩), .conn 1 (.frame true true), .flush 1, .proc, .push]

/-- The first client gives its subscription up. -/
def givenUp : List Sys.Ev := [.conn 0 (.recv ⟨b!"UNSUBSCRIBE", [(b!"id", b!"1")], []⟩), .conn 0 (.frame true true), .flush 0, .proc]

/-- The first client uses the id for another destination. -/
def usedAgain : List Sys.Ev := [.conn 0 (.recv ⟨b!"SUBSCRIBE", [(b!"id", b!"1"), (b!"destination", b!"/queue/b")], []⟩), .conn 0 (.frame true true), .flush 0, .proc]

/-- **C54** fails for topics: a message waiting in the connection's write channel is written after the client's UNSUBSCRIBE has been processed. -/
theorem C54_false_topic : ∃ es s s' k k' g, Sys.init.run sampleCfg es = some s ∧ s.crashed = false ∧ s.step sampleCfg (.conn 0 (.wr true)) = some s' ∧ s'.crashed = false ∧
    s.conns[0]? = some k ∧ s'.conns[0]? = some k' ∧ Spec.openSubs k.hist = [] ∧ k'.out = k.out ++ [⟨some g, some ⟨1, 0⟩⟩] ∧
    g.command = b!"MESSAGE" ∧ Spec.hdr g b!"subscription" = some b!"1" := by
  refine ⟨subscribedRun b!"/topic/a" ++ sentTo b!"/topic/a" ++ givenUp, _, _, _, _,
    ⟨b!"MESSAGE", [(b!"destination", b!"/topic/a"), (b!"subscription", b!"1"), (b!"message-id", b!"1"), (b!"id", b!"1")], [1]⟩,
    rfl, ?_, rfl, ?_, rfl, rfl, ?_, ?_, ?_, ?_⟩ <;> decide +kernel

/-- **C54** fails for queues when the client uses an id again: the message on its way to the old subscription is written, with the destination of the old one, though the
client's only subscription is for another destination; `c.subs[sub.id]` finds the new one. -/
theorem C54_false_reuse : ∃ es s s' k k' g, Sys.init.run sampleCfg es = some s ∧ s.crashed = false ∧ s.step sampleCfg (.conn 0 (.sub true)) = some s' ∧ s'.crashed = false ∧
    s.conns[0]? = some k ∧ s'.conns[0]? = some k' ∧ Spec.openSubs k.hist = [(b!"1", b!"/queue/b")] ∧ k'.out = k.out ++ [⟨some g, some ⟨1, 0⟩⟩] ∧
    g.command = b!"MESSAGE" ∧ Spec.hdr g b!"subscription" = some b!"1" ∧ Spec.hdr g b!"destination" = some b!"/queue/a" := by
  refine ⟨subscribedRun b!"/queue/a" ++ sentTo b!"/queue/a" ++ givenUp ++ usedAgain, _, _, _, _,
    ⟨b!"MESSAGE", [(b!"destination", b!"/queue/a"), (b!"subscription", b!"1"), (b!"message-id", b!"1"), (b!"id", b!"1")], [1]⟩,
    rfl, ?_, rfl, ?_, rfl, rfl, ?_, ?_, ?_, ?_, ?_⟩ <;> decide +kernel

-- C54: a queue message written to the only subscription of the client.
example : ∃ s s' k k' w g, Sys.init.run sampleCfg (subscribedRun b!"/queue/a" ++ sentTo b!"/queue/a") = some s ∧ s.crashed = false ∧
    s.step sampleCfg (.conn 0 (.sub true)) = some s' ∧ s'.crashed = false ∧ s.conns[0]? = some k ∧ s'.conns[0]? = some k' ∧ k'.out = k.out ++ [w] ∧ w.frame = some g ∧
    g.command = b!"MESSAGE" ∧ Spec.hdr g b!"destination" = some b!"/queue/a" ∧ Spec.openSubs k.hist = [(b!"1", b!"/queue/a")] ∧ (Spec.idsAsked k.hist).Nodup := by
  refine ⟨_, _, _, _, ⟨some ⟨b!"MESSAGE", [(b!"destination", b!"/queue/a"), (b!"subscription", b!"1"), (b!"message-id", b!"1"), (b!"id", b!"1")], [1]⟩, some ⟨1, 0⟩⟩, _,
    rfl, ?_, rfl, ?_, rfl, rfl, ?_, rfl, ?_, ?_, ?_, ?_⟩ <;> decide +kernel

-- C54: a topic message written to the only subscription of the client.
example : ∃ s s' k k' w g, Sys.init.run sampleCfg (subscribedRun b!"/topic/a" ++ sentTo b!"/topic/a") = some s ∧ s.crashed = false ∧
    s.step sampleCfg (.conn 0 (.wr true)) = some s' ∧ s'.crashed = false ∧ s.conns[0]? = some k ∧ s'.conns[0]? = some k' ∧ k'.out = k.out ++ [w] ∧ w.frame = some g ∧
    g.command = b!"MESSAGE" ∧ k.hist.filterMap Spec.opens = [(b!"1", b!"/topic/a")] := by
  refine ⟨_, _, _, _, ⟨some ⟨b!"MESSAGE", [(b!"destination", b!"/topic/a"), (b!"subscription", b!"1"), (b!"message-id", b!"1"), (b!"id", b!"1")], [1]⟩, some ⟨1, 0⟩⟩, _,
    rfl, ?_, rfl, ?_, rfl, rfl, ?_, rfl, ?_, ?_⟩ <;> decide +kernel

-- C54: a message for a subscription given up is sent back to the queue, not written.
example : ∃ s k, Sys.init.run sampleCfg (subscribedRun b!"/queue/a" ++ sentTo b!"/queue/a" ++ givenUp ++ [.conn 0 (.sub true)]) = some s ∧ s.crashed = false ∧
    s.conns[0]? = some k ∧ Spec.openSubs k.hist = [] ∧ k.out.length = 1 := by
  refine ⟨_, _, rfl, ?_, rfl, ?_, ?_⟩ <;> decide +kernel

end Stomp.Server
