import Verif.Proofs.Server.SubFrom
import Verif.Props.Server.Queues
import Verif.Props.Server.Replies
/-!
# Properties C37, C38, C44: messages are not lost, not duplicated, not changed

A SEND takes effect when the connection has processed it (or the COMMIT of its transaction); it is then a request to the processor that carries
the message (`Spec.messages`). Messages are identified by the number of the connection and the number of the SEND.
-/
namespace Stomp.Server
open Stomp
open Stomp.Spec (firstValue)

/-! ## C37 -/

/-- **C37** (part). In every execution, every message accepted for a queue is in exactly one place, exactly once: waiting to be processed, stored in its
queue, allocated to a subscription, finished — or dropped by a connection that could not write it. Missing: the last place is not one
of those the property allows (`C37_false`); it stays empty as long as no write fails (`C37_one_place_writing_partial`). -/
theorem C37_one_place_partial (cfg : Config) (es : List Sys.Ev) (s : Sys) (h : Sys.init.run cfg es = some s) (hc : s.crashed = false)
    (d : Bytes) (o : Msg) (ho : Spec.AcceptedFor s d o) :
    (Spec.pendingRequests s ++ Spec.stored s d ++ Spec.allocated s ++ Spec.finished s ++ Spec.failed s).count o.tag = 1 := by
  obtain ⟨hq, ht, c, k, hk, hm⟩ := ho
  simp only [List.count_append]
  exact places_run h hc ((isQueue_iff d).2 hq) ht hk hm

/-- **C37** (part). As long as no write to a client has failed and no goroutine is about to panic, every message accepted for a queue is in exactly one
of the four places, exactly once. -/
theorem C37_one_place_writing_partial (cfg : Config) (es : List Sys.Ev) (s : Sys) (h : Sys.init.run cfg es = some s) (hc : s.crashed = false)
    (hw : ∀ (c : Nat) (k : Conn), s.conns[c]? = some k → k.wfail = false ∧ .panic ∉ k.outbox)
    (d : Bytes) (o : Msg) (ho : Spec.AcceptedFor s d o) :
    (Spec.pendingRequests s ++ Spec.stored s d ++ Spec.allocated s ++ Spec.finished s).count o.tag = 1 := by
  have h1 := C37_one_place_partial cfg es s h hc d o ho
  have h2 : Spec.failed s = [] := by
    unfold Spec.failed
    rw [List.flatMap_eq_nil_iff]
    intro k hk
    obtain ⟨c, hck⟩ := List.getElem?_of_mem hk
    obtain ⟨ces, hr, _⟩ := conn_run h hc hck
    have := lostOk_run hr
    by_cases hl : k.lost = []
    · exact hl
    · rcases this hl with h3 | h3
      · rw [(hw c k hck).1] at h3; cases h3
      · exact absurd h3 (hw c k hck).2
  rw [h2, List.append_nil] at h1
  exact h1

/-- The places of the property. -/
def Spec.somewhere (s : Sys) (d : Bytes) : List Tag :=
  Spec.pendingRequests s ++ Spec.stored s d ++ Spec.allocated s ++ Spec.finished s ++ Spec.failed s

/-- **C37** (part). Nothing is made up: whatever is in one of these places is a message some client sent. -/
theorem C37_no_forgery (cfg : Config) (es : List Sys.Ev) (s : Sys) (h : Sys.init.run cfg es = some s) (hc : s.crashed = false)
    (d : Bytes) (t : Tag) (ht : t ∈ Spec.somewhere s d) :
    ∃ (k : Conn) (o : Msg), s.conns[t.src]? = some k ∧ o ∈ Spec.messages t.src 0 k.effective ∧ o.tag = t := by
  have hi := (sys_induction (P := fun _ => True) trivial (fun _ _ _ _ _ _ => trivial) es s h hc).1
  have htot := total_run h hc t
  have pos : 0 < total s t := by
    have h0 : 0 < (Spec.somewhere s d).count t := List.count_pos_iff.2 ht
    unfold Spec.somewhere Spec.pendingRequests Spec.allocated Spec.finished Spec.failed at h0
    simp only [List.count_append] at h0
    have hst : (Spec.stored s d).count t ≤ storeSum s.store t :=
      AMap.le_sum_list (fun l : List Msg => (l.map (fun m : Msg => m.tag)).count t) rfl s.store d
    unfold total
    rw [connSum_eq, todoTags_eq, ← inRequests_eq]
    omega
  rw [htot] at pos
  unfold made at pos
  cases hk : s.conns[t.src]? with
  | none => rw [hk] at pos; exact absurd pos (by simp)
  | some k =>
    rw [hk] at pos
    dsimp only at pos
    have hcnt := hi.counted hk
    have hlt : t.seq < k.sent := by
      by_cases hlt : t.seq < k.sent
      · exact hlt
      · rw [if_neg hlt] at pos; omega
    have hs : k.sent = (Spec.messages t.src 0 k.effective).length := by
      have := hcnt.1; unfold Counted at this
      rw [show k.core.me = t.src from hcnt.2] at this; exact this
    obtain ⟨o, ho, hot⟩ := (messages_get t.src 0 k.effective t.seq).2 ⟨by omega, by omega⟩
    exact ⟨k, o, rfl, ho, hot⟩

/-- **C37** (part). A message waiting for an acknowledgement, or finished, has been written to that client. -/
theorem C37_written (cfg : Config) (es : List Sys.Ev) (s : Sys) (h : Sys.init.run cfg es = some s) (hc : s.crashed = false)
    (c : Nat) (k : Conn) (hk : s.conns[c]? = some k) (t : Tag) (ht : t ∈ Spec.allocatedTo k k.subList ++ k.acked ++ k.autoDone) :
    ∃ w ∈ k.out, w.tag = some t := by
  rw [allocatedTo_eq] at ht
  have := doneOk_run h hc c k hk t ht
  unfold outTags at this
  obtain ⟨w, hw, hwt⟩ := List.mem_filterMap.1 this
  exact ⟨w, hw, hwt⟩

/-- Two clients: the first subscribes to a queue, the second sends a message to it; the message is on its way to the first. -/
def handRun (mode : Bytes) : List Sys.Ev :=
  [.accept, .conn 0 (.recv sampleConnect), .conn 0 (.frame true true), .flush 0, .proc,
   .accept, .conn 1 (.recv sampleConnect), .conn 1 (.frame true true), .flush 1, .proc,
   .conn 0 (.recv ⟨b!"SUBSCRIBE", [(b!"id", b!"1"), (b!"destination", b!"/queue/a"), (b!"ack", mode)], []⟩), .conn 0 (.frame true true), .flush 0, .proc,
   .conn 1 (.recv ⟨b!"SEND", [(b!"destination", b!"/queue/a"), (b!"id", b!"x"), (b!"k", b!"v")], [1]⟩), .conn 1 (.frame true true), .flush 1, .proc, .push]

/-- **C37** fails: the client's end of the connection is gone when the server writes the message to it. The message was
accepted for the queue, and it is neither waiting to be processed, nor stored, nor allocated to a subscription, nor acknowledged; it was not
written to anybody. -/
theorem C37_false : ∃ es s d o, Sys.init.run sampleCfg es = some s ∧ s.crashed = false ∧ Spec.AcceptedFor s d o ∧
    o.tag ∉ Spec.pendingRequests s ++ Spec.stored s d ++ Spec.allocated s ++ Spec.finished s ∧
    ∀ k ∈ s.conns, ∀ w ∈ k.out, w.tag ≠ some o.tag := by
  refine ⟨handRun b!"auto" ++ [.conn 0 (.sub false)], _, b!"/queue/a",
    ⟨⟨1, 0⟩, ⟨b!"MESSAGE", [(b!"destination", b!"/queue/a"), (b!"id", b!"x"), (b!"k", b!"v")], [1]⟩⟩, rfl, by decide +kernel, ?_, by decide +kernel, by decide +kernel⟩
  exact ⟨by unfold Spec.IsQueue; decide +kernel, by decide +kernel, 1, _, rfl, by decide +kernel⟩

-- C37_one_place_partial, C37_one_place_writing_partial: the message above while it is on its way, and the run in which it is written and acknowledged implicitly.
example : ∃ s, Sys.init.run sampleCfg (handRun b!"auto") = some s ∧ s.crashed = false ∧
    (∀ k ∈ s.conns, k.wfail = false ∧ .panic ∉ k.outbox) ∧
    Spec.AcceptedFor s b!"/queue/a" ⟨⟨1, 0⟩, ⟨b!"MESSAGE", [(b!"destination", b!"/queue/a"), (b!"id", b!"x"), (b!"k", b!"v")], [1]⟩⟩ ∧
    Spec.allocated s = [⟨1, 0⟩] :=
  ⟨_, rfl, by decide +kernel, by decide +kernel, ⟨by unfold Spec.IsQueue; decide +kernel, by decide +kernel, 1, _, rfl, by decide +kernel⟩, by decide +kernel⟩

-- C37_no_forgery, C37_written: the same message, finished.
example : ∃ s k, Sys.init.run sampleCfg (handRun b!"auto" ++ [.conn 0 (.sub true)]) = some s ∧ s.crashed = false ∧ s.conns[0]? = some k ∧
    ⟨1, 0⟩ ∈ Spec.allocatedTo k k.subList ++ k.acked ++ k.autoDone ∧ ⟨1, 0⟩ ∈ Spec.somewhere s b!"/queue/a" :=
  ⟨_, _, rfl, by decide +kernel, rfl, by decide +kernel, by decide +kernel⟩

/-! ## C38 -/

/-- **C38** (part). Whatever a connection holds when its clean-up begins, or at any later moment of it — queue messages on their way to the client and messages
written but not acknowledged — it has sent back to the processor by the time it is closed, unless it has been handed the message again in the meantime and
still has it in its channel; it has no unsent requests left then, and holds nothing else. Missing: messages lost in a failed write (`C38_write_false`) and messages
that arrive after the last look into the channel (`C38_stranded_false`). -/
theorem C38_sent_back_partial (cfg : Config) (es es' : List Sys.Ev) (s s' : Sys) (h : Sys.init.run cfg es = some s) (h' : s.run cfg es' = some s')
    (hc : s'.crashed = false) (c : Nat) (k k' : Conn) (hk : s.conns[c]? = some k) (hst : k.stage ≠ .run)
    (hk' : s'.conns[c]? = some k') (hcl : k'.stage = .closed) :
    (∃ new, k'.log = k.log ++ new ∧ ∀ t ∈ Spec.allocatedTo k (k.subCh ++ k.subList), t ∈ Spec.allocatedTo k' k'.subCh ∨ ∃ m, .requeue (some m) ∈ new ∧ m.tag = t) ∧
    Spec.unsent k' = [] ∧ k'.subList = [] := by
  obtain ⟨k1, hk1, _, new, hl, hb⟩ := cleaning_run h h' hc hk hst
  rw [hk'] at hk1; injection hk1 with hk1; subst hk1
  have hrun : Sys.init.run cfg (es ++ es') = some s' := by rw [sysRun_append es es' _ _ h]; exact h'
  obtain ⟨ces, hr, _⟩ := conn_run hrun hc hk'
  have he := endOk_run hr
  have h0 := he.subList (by rw [hcl]; rfl)
  refine ⟨⟨new, hl, fun t ht => ?_⟩, by unfold Spec.unsent; rw [he.outbox hcl]; rfl, h0⟩
  rw [allocatedTo_eq] at ht
  refine (hb t ht).imp_left (fun h => ?_)
  unfold heldTags at h
  rw [h0, List.append_nil] at h
  rw [allocatedTo_eq]; exact h

/-- **C38** (part). When a connection is closed, every message accepted for a queue that it has not finished, has not dropped, and does not have in its channel is in exactly one
place, exactly once, and none of them is at this connection: waiting to be processed, stored in its queue, on the way to or allocated to another connection, or finished
or dropped by another connection. -/
theorem C38_elsewhere_partial (cfg : Config) (es : List Sys.Ev) (s : Sys) (h : Sys.init.run cfg es = some s) (hc : s.crashed = false)
    (c : Nat) (k : Conn) (hk : s.conns[c]? = some k) (hcl : k.stage = .closed) (d : Bytes) (o : Msg) (ho : Spec.AcceptedFor s d o)
    (h1 : o.tag ∉ k.acked ++ k.autoDone) (h2 : o.tag ∉ k.lost) (h3 : o.tag ∉ Spec.allocatedTo k k.subCh) :
    (Spec.inRequests s.reqCh ++ Spec.stored s d ++ Spec.onTheWay s ++
      (s.conns.eraseIdx c).flatMap (fun k => Spec.inRequests (Spec.unsent k) ++ Spec.allocatedTo k (k.subCh ++ k.subList) ++ (k.acked ++ k.autoDone) ++ k.lost)).count o.tag = 1 := by
  have htot := C37_one_place_partial cfg es s h hc d o ho
  obtain ⟨ces, hr, _⟩ := conn_run h hc hk
  have he := endOk_run hr
  have hl := he.subList (by rw [hcl]; rfl)
  have hu : Spec.unsent k = [] := by unfold Spec.unsent; rw [he.outbox hcl]; rfl
  have split : ∀ (f : Conn → List Tag), (s.conns.flatMap f).count o.tag = (f k).count o.tag + ((s.conns.eraseIdx c).flatMap f).count o.tag := by
    intro f
    have key : ∀ (l : List Conn) (c : Nat), l[c]? = some k → (l.flatMap f).count o.tag = (f k).count o.tag + ((l.eraseIdx c).flatMap f).count o.tag := by
      intro l
      induction l with
      | nil => intro c h; simp at h
      | cons x l ih =>
        intro c h
        cases c with
        | zero =>
          simp at h; subst h
          simp [List.count_append]
        | succ c =>
          simp at h
          simp only [List.eraseIdx_cons_succ, List.flatMap_cons, List.count_append, ih c h]
          omega
    exact key _ _ hk
  unfold Spec.pendingRequests Spec.allocated Spec.finished Spec.failed at htot
  simp only [List.count_append] at htot
  rw [split, split, split, split] at htot
  have z1 : (k.acked ++ k.autoDone).count o.tag = 0 := List.count_eq_zero.2 h1
  have z2 : k.lost.count o.tag = 0 := List.count_eq_zero.2 h2
  have z3 : (Spec.allocatedTo k (k.subCh ++ k.subList)).count o.tag = 0 := by
    rw [hl, List.append_nil]; exact List.count_eq_zero.2 h3
  have z4 : (Spec.inRequests (Spec.unsent k)).count o.tag = 0 := by rw [hu]; rfl
  simp only [List.count_append]
  rw [count_flatMap_append, count_flatMap_append, count_flatMap_append]
  have e : (s.conns.eraseIdx c).flatMap (fun x => x.lost) = (s.conns.eraseIdx c).flatMap Conn.lost := rfl
  rw [e] at htot
  omega

/-- A message on its way when the client hangs up: the client sees it neither now nor later, and so does nobody else. -/
def strandRun : List Sys.Ev :=
  [.accept, .conn 0 (.recv sampleConnect), .conn 0 (.frame true true), .flush 0, .proc,
   .accept, .conn 1 (.recv sampleConnect), .conn 1 (.frame true true), .flush 1, .proc,
   .conn 0 (.recv ⟨b!"SUBSCRIBE", [(b!"id", b!"1"), (b!"destination", b!"/queue/a")], []⟩), .conn 0 (.frame true true), .flush 0, .proc,
   .conn 1 (.recv ⟨b!"SEND", [(b!"destination", b!"/queue/a")], [1]⟩), .conn 1 (.frame true true), .flush 1,
   .conn 0 .readErr, .conn 0 .readClosed, .conn 0 .clean, .conn 0 (.cleanUnsub [0]), .flush 0, .proc,
   .conn 0 .clean, .conn 0 .clean, .conn 0 .clean, .conn 0 .clean, .flush 0, .conn 0 .clean, .conn 0 .clean, .push, .proc, .proc]

/-- **C38** fails (1): a connection ends because a write of a message fails; the message it was writing does not go back to its queue: nobody holds it any more, nothing is
pending. -/
theorem C38_write_false : ∃ es s o k, Sys.init.run sampleCfg es = some s ∧ s.crashed = false ∧ Spec.AcceptedFor s b!"/queue/a" o ∧ s.conns[0]? = some k ∧ k.stage = .closed ∧
    s.reqCh = [] ∧ s.todo = [] ∧ o.tag ∉ Spec.pendingRequests s ++ Spec.stored s b!"/queue/a" ++ Spec.allocated s ++ Spec.finished s := by
  refine ⟨handRun b!"client" ++ [.conn 0 (.sub false), .conn 0 .clean, .conn 0 (.cleanUnsub [0]), .flush 0, .conn 0 .clean, .conn 0 .clean, .conn 0 .clean, .conn 0 .clean, .flush 0,
      .conn 0 .clean, .conn 0 .clean, .proc, .proc], _,
    ⟨⟨1, 0⟩, ⟨b!"MESSAGE", [(b!"destination", b!"/queue/a"), (b!"id", b!"x"), (b!"k", b!"v")], [1]⟩⟩, _, rfl, by decide +kernel, ?_, rfl, by decide +kernel, by decide +kernel, by decide +kernel, by decide +kernel⟩
  exact ⟨by unfold Spec.IsQueue; decide +kernel, by decide +kernel, 1, _, rfl, by decide +kernel⟩

/-- **C38** fails (2): the processor allocates a message to a subscription of a connection that is closing, and puts it into its channel after the last look at it. Without any
failure of the network the message stays there: in every continuation, it is neither in its queue nor allocated to any other connection. -/
theorem C38_stranded_false : ∃ es s o, Sys.init.run sampleCfg es = some s ∧ s.crashed = false ∧ Spec.AcceptedFor s b!"/queue/a" o ∧ (∀ k ∈ s.conns, k.wfail = false) ∧
    ∀ es' s', s.run sampleCfg es' = some s' → s'.crashed = false →
      ∃ k', s'.conns[0]? = some k' ∧ k'.stage = .closed ∧ o.tag ∈ Spec.allocatedTo k' k'.subCh ∧ o.tag ∉ Spec.pendingRequests s' ++ Spec.stored s' b!"/queue/a" ++ Spec.finished s' := by
  refine ⟨strandRun, _, ⟨⟨1, 0⟩, ⟨b!"MESSAGE", [(b!"destination", b!"/queue/a")], [1]⟩⟩, rfl, by decide +kernel,
    ⟨by unfold Spec.IsQueue; decide +kernel, by decide +kernel, 1, _, rfl, by decide +kernel⟩, by decide +kernel, ?_⟩
  intro es' s' h' hc'
  obtain ⟨k', hk', hcl, _, hb⟩ := closed_run (cfg := sampleCfg) (es := strandRun) (c := 0) rfl h' hc' rfl (by decide +kernel)
  have hheld := hb ⟨1, 0⟩ (by decide +kernel)
  have hrun : Sys.init.run sampleCfg (strandRun ++ es') = some s' := by rw [sysRun_append strandRun es' _ _ rfl]; exact h'
  obtain ⟨ces, hr, _⟩ := conn_run hrun hc' hk'
  have h0 := (endOk_run hr).subList (by rw [hcl]; rfl)
  have hin : (⟨1, 0⟩ : Tag) ∈ Spec.allocatedTo k' k'.subCh := by
    unfold heldTags at hheld
    rw [h0, List.append_nil] at hheld
    rw [allocatedTo_eq]; exact hheld
  refine ⟨k', hk', hcl, hin, ?_⟩
  obtain ⟨k1, hk1⟩ : ∃ k1, s'.conns[1]? = some k1 ∧ (⟨⟨1, 0⟩, ⟨b!"MESSAGE", [(b!"destination", b!"/queue/a")], [1]⟩⟩ : Msg) ∈ Spec.messages 1 0 k1.effective := by
    have hi := (sys_induction (cfg := sampleCfg) (P := fun _ => True) trivial (fun _ _ _ _ _ _ => trivial) strandRun _ rfl (not_crashed h' hc')).1
    refine (sys_induction_from (cfg := sampleCfg) (P := fun s' => ∃ k1, s'.conns[1]? = some k1 ∧ (⟨⟨1, 0⟩, ⟨b!"MESSAGE", [(b!"destination", b!"/queue/a")], [1]⟩⟩ : Msg) ∈ Spec.messages 1 0 k1.effective)
      (fun s1 e s2 hi hp hs => ?_) es' _ s' ⟨hi, _, rfl, by decide +kernel⟩ h' hc').2
    obtain ⟨k1, h1, h2⟩ := hp
    obtain ⟨k2, l, h3, h4⟩ := effective_grows hi hs h1
    exact ⟨k2, h3, by rw [h4, messages_append]; exact List.mem_append_left _ h2⟩
  have hone := C37_one_place_partial sampleCfg _ s' hrun hc' b!"/queue/a" ⟨⟨1, 0⟩, ⟨b!"MESSAGE", [(b!"destination", b!"/queue/a")], [1]⟩⟩
    ⟨by unfold Spec.IsQueue; decide +kernel, by decide +kernel, 1, k1, hk1⟩
  have hal : 0 < (Spec.allocated s').count (⟨1, 0⟩ : Tag) := by
    refine List.count_pos_iff.2 (List.mem_append_right _ (List.mem_flatMap.2 ⟨k', List.mem_of_getElem? hk', ?_⟩))
    rw [h0, List.append_nil]; exact hin
  simp only [List.count_append] at hone
  intro hm
  have hm := List.count_pos_iff.2 hm
  simp only [List.count_append] at hm
  omega

-- C38_sent_back_partial: a client hangs up with one message unacknowledged; when its connection is closed the message has gone back.
example : ∃ es es' s s' k k', Sys.init.run sampleCfg es = some s ∧ s.run sampleCfg es' = some s' ∧ s'.crashed = false ∧ s.conns[0]? = some k ∧ k.stage ≠ .run ∧
    s'.conns[0]? = some k' ∧ k'.stage = .closed ∧ Spec.allocatedTo k (k.subCh ++ k.subList) = [⟨1, 0⟩] ∧ Spec.stored s' b!"/queue/a" = [⟨1, 0⟩] :=
  ⟨handRun b!"client" ++ [.conn 0 (.sub true), .conn 0 .readErr, .conn 0 .readClosed],
    [.conn 0 .clean, .conn 0 (.cleanUnsub [0]), .flush 0, .conn 0 .clean, .flush 0, .conn 0 .clean, .conn 0 .clean, .conn 0 .clean, .flush 0,
      .conn 0 .clean, .conn 0 .clean, .proc, .proc, .proc], _, _, _, _, rfl, rfl, by decide +kernel, rfl, by decide +kernel, rfl, by decide +kernel, by decide +kernel, by decide +kernel⟩

-- C38_elsewhere_partial: the same.
example : ∃ es s k o, Sys.init.run sampleCfg es = some s ∧ s.crashed = false ∧ s.conns[0]? = some k ∧ k.stage = .closed ∧ Spec.AcceptedFor s b!"/queue/a" o ∧
    o.tag ∉ k.acked ++ k.autoDone ∧ o.tag ∉ k.lost ∧ o.tag ∉ Spec.allocatedTo k k.subCh :=
  ⟨handRun b!"client" ++ [.conn 0 (.sub true), .conn 0 .readErr, .conn 0 .readClosed,
      .conn 0 .clean, .conn 0 (.cleanUnsub [0]), .flush 0, .conn 0 .clean, .flush 0, .conn 0 .clean, .conn 0 .clean, .conn 0 .clean, .flush 0,
      .conn 0 .clean, .conn 0 .clean, .proc, .proc, .proc], _, _, ⟨⟨1, 0⟩, ⟨b!"MESSAGE", [(b!"destination", b!"/queue/a"), (b!"id", b!"x"), (b!"k", b!"v")], [1]⟩⟩,
    rfl, by decide +kernel, rfl, by decide +kernel, ⟨by unfold Spec.IsQueue; decide +kernel, by decide +kernel, 1, _, rfl, by decide +kernel⟩,
    by decide +kernel, by decide +kernel, by decide +kernel⟩

/-! ## C44 -/

/-- **C44** (part). In every execution, every MESSAGE frame written to a client delivers a SEND frame that some connection received to a subscription the client made by a SUBSCRIBE frame:
same body, same destination, same other headers in the same order, the subscription's id, a message-id, and an ack header exactly for queue subscriptions with explicit
acknowledgement; and the message-ids on the connection are all different. Missing: the headers named `id`, `ack`, `subscription` and
`message-id` of the SEND frame are not among the preserved ones (`C44_false`). -/
theorem C44_delivered_partial (cfg : Config) (es : List Sys.Ev) (s : Sys) (h : Sys.init.run cfg es = some s) (hc : s.crashed = false)
    (c : Nat) (k : Conn) (hk : s.conns[c]? = some k) (w : Wr) (hw : w ∈ k.out) (g : Frame) (hg : w.frame = some g) (hm : g.command = b!"MESSAGE") :
    ∃ (p : Conn) (f q : Frame), p ∈ s.conns ∧ f ∈ p.hist ∧ f.command = b!"SEND" ∧ q ∈ k.hist ∧ q.command = b!"SUBSCRIBE" ∧ Spec.Delivers f q g := by
  obtain ⟨ces, hr, henv⟩ := conn_run h hc hk
  obtain ⟨t, ht⟩ := messageTagged_run hr henv w hw g hg hm
  obtain ⟨g', hg', ⟨p, o, hp, ho, hot, hcmd, hbody, hoth⟩, i, hi, hsub, hdest, v, hv, hack⟩ := written_run h hc c k hk w hw t ht
  rw [hg] at hg'; injection hg' with hg'; subst hg'
  obtain ⟨pes, hpr, _⟩ := conn_run h hc hp
  obtain ⟨e, he, hes, heo⟩ := messages_from ho
  obtain ⟨f, hf, rfl⟩ := (histOk_run hpr).effective e he
  have hx : deref k.heap i ∈ k.heap := by
    unfold deref; rw [List.getD_eq_getElem?_getD, List.getElem?_eq_getElem hi]; exact List.getElem_mem hi
  obtain ⟨q, hq, hmb⟩ := heapFrom_run hr _ hx
  have hd : (deref k.heap i).fixed.dest = (deref k.heap i).dest := rfl
  have hid : (deref k.heap i).fixed.id = (deref k.heap i).id := rfl
  have hak : (deref k.heap i).fixed.ack = (deref k.heap i).ack := rfl
  rw [hd] at hdest hack; rw [hid] at hsub; rw [hak] at hack
  refine ⟨p, f, q, List.mem_of_getElem? hp, hf, hes, hq, hmb.command, hm, ?_, ?_, ?_, ?_, ?_, ?_, ?_⟩
  · rw [show g.body = o.frame.body from hbody, heo]; rfl
  · rw [application_others (show Spec.others g.header = Spec.others o.frame.header from hoth), heo]; exact application_clean f
  · refine ⟨(deref k.heap i).dest, ?_, hdest, hmb.dest⟩
    have h1 := others_value (show Spec.others g.header = Spec.others o.frame.header from hoth) (k := b!"destination") (by decide)
    rw [hdest, heo] at h1
    rw [show Spec.hdr f b!"destination" = firstValue f.header b!"destination" from rfl, ← clean_value f b!"destination" (by decide)]
    exact h1.symm
  · exact ⟨_, hmb.id, hsub⟩
  · rw [show Spec.hdr g b!"message-id" = _ from hv]; rfl
  · intro hno
    show firstValue g.header b!"ack" = none
    rw [hack, if_neg]
    rintro ⟨h1, h2⟩
    rcases hno with h3 | h3 | h3
    · exact h3 _ hmb.dest ((isQueue_iff _).1 h1)
    · have := hmb.ack; rw [show firstValue q.header b!"ack" = none from h3] at this; exact h2 this.symm
    · have := hmb.ack; rw [show firstValue q.header b!"ack" = _ from h3] at this; exact h2 this.symm
  · rintro ⟨d, h1, h2⟩ h3 h4
    have h5 := hmb.dest
    rw [show firstValue q.header b!"destination" = some d from h1] at h5; injection h5 with h5; subst h5
    show firstValue g.header b!"ack" = firstValue g.header b!"message-id"
    rw [hack, hv, if_pos]
    refine ⟨(isQueue_iff _).2 h2, fun h5 => ?_⟩
    have h6 := hmb.ack
    rw [h5] at h6
    cases h7 : firstValue q.header b!"ack" with
    | none => exact h3 h7
    | some a => rw [h7] at h6; exact h4 (by rw [show Spec.hdr q b!"ack" = some a from h7]; exact congrArg some h6)

/-- **C44** (part). The message-ids of the MESSAGE frames written on a connection are fresh: no two are equal (below 2^64 − 1 frames). -/
theorem C44_fresh_ids (cfg : Config) (es : List Sys.Ev) (s : Sys) (h : Sys.init.run cfg es = some s) (hc : s.crashed = false)
    (c : Nat) (k : Conn) (hk : s.conns[c]? = some k) (hlen : k.out.length < 2 ^ 64 - 1) : (k.out.filterMap Spec.messageId).Nodup := by
  obtain ⟨ces, hr, henv⟩ := conn_run h hc hk
  exact (C35_increasing cfg c ces k hr henv hlen).2

/-- **C44** fails: an application's header named `id` does not arrive; the server overwrites it with its own message number. -/
theorem C44_false : ∃ es s k w g, Sys.init.run sampleCfg es = some s ∧ s.crashed = false ∧ s.conns[0]? = some k ∧ w ∈ k.out ∧ w.frame = some g ∧ g.command = b!"MESSAGE" ∧
    firstValue g.header b!"id" = some b!"1" ∧
    ∀ p ∈ s.conns, ∀ f ∈ p.hist, f.command = b!"SEND" → firstValue f.header b!"id" = some b!"x" :=
  ⟨handRun b!"auto" ++ [.conn 0 (.sub true)], _, _,
    ⟨some ⟨b!"MESSAGE", [(b!"destination", b!"/queue/a"), (b!"id", b!"1"), (b!"k", b!"v"), (b!"subscription", b!"1"), (b!"message-id", b!"1")], [1]⟩, some ⟨1, 0⟩⟩, _,
    rfl, by decide +kernel, rfl, by decide +kernel, rfl, by decide +kernel, by decide +kernel, by decide +kernel⟩

-- C44: a message refused and delivered again, in client mode.
example : ∃ s k, Sys.init.run sampleCfg (handRun b!"client" ++ [.conn 0 (.sub true),
      .conn 0 (.recv ⟨b!"NACK", [(b!"message-id", b!"0"), (b!"subscription", b!"1")], []⟩), .conn 0 (.frame true true), .flush 0, .proc, .flush 0, .proc]) = some s ∧
    s.crashed = false ∧ s.conns[0]? = some k ∧
    k.out.filterMap Spec.messageId = [some b!"1"] ∧ Spec.onTheWay s = [⟨1, 0⟩] :=
  ⟨_, _, rfl, by decide +kernel, rfl, by decide +kernel, by decide +kernel⟩

end Stomp.Server
