import Verif.Proofs.Server.Forgotten
import Verif.Proofs.Server.TopicOrder
import Verif.Props.Server.Deadlock
import Verif.Props.Server.Conservation
import Verif.Props.Server.Subscriptions
/-!
# Property C86: the server forgets a connection that has ended
-/
namespace Stomp.Server
open Stomp

/-- **C86** (topics). When a connection has ended and the processor has handled its requests, no topic has a subscription of it. -/
theorem C86_topic (cfg : Config) (es : List Sys.Ev) (s : Sys) (h : Sys.init.run cfg es = some s) (hc : s.crashed = false) (c : Nat) (ho : Spec.Over s c) :
    Spec.NoTopicHas s c := by
  intro d r hr hrc
  obtain ⟨k, hk, hst⟩ := ho.ended
  have ha := addr_run h hc
  have hd := (ha.t d r hr).1
  obtain ⟨ces, hrun, _⟩ := conn_run h hc hk
  have he := endOk_run hrun
  have hch := (order_run_topic hd h hc).1 c k hk
  have hops : opsOf k.heap d c (s.reqCh ++ pending k.outbox) = [] := by
    rw [he.outbox hst]
    show opsOf k.heap d c (s.reqCh ++ []) = []
    rw [List.append_nil]
    unfold opsOf
    rw [List.filterMap_eq_nil_iff]
    intro q hq
    unfold opOf
    split
    · rename_i x
      rw [if_neg]
      rintro ⟨rfl, _⟩
      exact (ho.asked x.idx).1 hq
    · rename_i x
      rw [if_neg]
      rintro ⟨rfl, _⟩
      exact (ho.asked x.idx).2 hq
    · rfl
  have hm : r.idx ∈ after (memsOf (s.topics.list d) c) (opsOf k.heap d c (s.reqCh ++ pending k.outbox)) := by
    rw [hops]
    show r.idx ∈ memsOf (s.topics.list d) c
    rw [mem_memsOf, ← hrc]; exact hr
  have := hch.live _ hm
  rw [he.subs (by rw [hst]; rfl)] at this
  cases this

/-- **C86** (queues, part 1). When a connection has ended and the processor has handled its requests, a subscription is in no list if the connection's last request
about it was to take it out. -/
theorem C86_last_partial (cfg : Config) (es : List Sys.Ev) (s : Sys) (h : Sys.init.run cfg es = some s) (hc : s.crashed = false) (c : Nat) (ho : Spec.Over s c)
    (k : Conn) (hk : s.conns[c]? = some k) (i : Nat) (hl : (Spec.turns ⟨c, i⟩ k.log).getLast? = some false) :
    ∀ d, ⟨c, i⟩ ∉ s.queues.list d ∧ ⟨c, i⟩ ∉ s.topics.list d := by
  obtain ⟨k1, hk1, hst⟩ := ho.ended
  rw [hk] at hk1; injection hk1 with hk1; subst hk1
  obtain ⟨ces, hrun, _⟩ := conn_run h hc hk
  have hn : Spec.turns ⟨c, i⟩ (s.reqCh ++ pending k.outbox) = [] := by
    rw [(endOk_run hrun).outbox hst]
    show Spec.turns ⟨c, i⟩ (s.reqCh ++ []) = []
    rw [List.append_nil]
    exact turns_nil_of (ho.asked i).1 (ho.asked i).2
  rcases lastOk_run h hc ⟨c, i⟩ k hk hl with h1 | ⟨_, h1⟩
  · rw [hn] at h1; cases h1
  · exact h1

/-- **C86** (queues, part 2). When the connection of a client that never gave a subscription up before it ended, or that used no id twice, has ended, and the processor has handled its
requests, no queue has a subscription of it. Missing: clients that give a subscription up and use its id again (`C86_false`). -/
theorem C86_queue_partial (cfg : Config) (es : List Sys.Ev) (s : Sys) (h : Sys.init.run cfg es = some s) (hc : s.crashed = false) (c : Nat) (ho : Spec.Over s c)
    (k : Conn) (hk : s.conns[c]? = some k) (hs : Spec.Simple k.hist) : Spec.NoQueueHas s c := by
  intro d r hr hrc
  obtain ⟨k1, hk1, hst⟩ := ho.ended
  rw [hk] at hk1; injection hk1 with hk1; subst hk1
  obtain ⟨ces, hrun, _⟩ := conn_run h hc hk
  have hset := settled_run h hc c k hk
  obtain ⟨rc, i⟩ := r
  dsimp only at hrc
  subst hrc
  obtain ⟨_, x, hx, _⟩ := (addr_run h hc).q d _ hr
  obtain ⟨k2, hk2, hlt, _⟩ := look_some hx
  dsimp only at hk2 hlt
  rw [hk] at hk2; injection hk2 with hk2; subst hk2
  rcases hset.all hs i hlt with ⟨id, h1⟩ | h1 | h1
  · rw [(endOk_run hrun).subs (by rw [hst]; rfl)] at h1; cases h1
  · exact (C86_last_partial cfg es s h hc rc ho k hk i h1 d).1 hr
  · exact h1.1 ⟨d, hr⟩

/-- **C86** (part). From then on nothing reaches the connection: if no queue has a subscription of it, then in every continuation no queue and no topic has one, and its channels are as
they were. -/
theorem C86_forever_partial (cfg : Config) (es es' : List Sys.Ev) (s s' : Sys) (h : Sys.init.run cfg es = some s) (h' : s.run cfg es' = some s') (hc : s'.crashed = false)
    (c : Nat) (ho : Spec.Over s c) (hq : Spec.NoQueueHas s c) (k : Conn) (hk : s.conns[c]? = some k) :
    Spec.NoQueueHas s' c ∧ Spec.NoTopicHas s' c ∧ ∃ k', s'.conns[c]? = some k' ∧ k'.stage = .closed ∧ k'.subCh = k.subCh ∧ k'.writeCh = k.writeCh ∧ k'.heap = k.heap := by
  have hc0 := not_crashed h' hc
  obtain ⟨k1, hk1, hst⟩ := ho.ended
  rw [hk] at hk1; injection hk1 with hk1; subst hk1
  obtain ⟨ces, hrun, _⟩ := conn_run h hc0 hk
  have hi := (sys_induction (P := fun _ => True) trivial (fun _ _ _ _ _ _ => trivial) es s h hc0).1
  have hu : Unknown c k s := ⟨⟨k, hk, hst, (endOk_run hrun).outbox hst, rfl, rfl, rfl⟩, ho, hq, C86_topic cfg es s h hc0 c ho⟩
  have := (sys_induction_from (P := Unknown c k) (fun _ _ _ hi hp hs => unknown_step hi hp hs) es' s s' ⟨hi, hu⟩ h' hc).2
  obtain ⟨k', h1, h2, _, h3, h4, h5⟩ := this.conn
  exact ⟨this.queue, this.topic, k', h1, h2, h3, h4, h5⟩

/-! ## Subscriptions that stay -/

/-- The end of connection 0, which has the subscriptions `order` in its map and holds no message; the processor handles its requests. -/
def hangUp (order : List Nat) : List Sys.Ev :=
  [.conn 0 .readErr, .conn 0 .readClosed, .conn 0 .clean, .conn 0 (.cleanUnsub order)] ++ List.replicate order.length (.flush 0) ++
  [.conn 0 .clean, .conn 0 .clean, .conn 0 .clean, .conn 0 .clean, .flush 0, .conn 0 .clean, .conn 0 .clean] ++ List.replicate (order.length + 1) .proc

/-- A client gives a subscription up while a message is on its way to it, and uses the id again; the message is written, and the client hangs up. -/
def ghostRun : List Sys.Ev :=
  subscribedRun b!"/queue/a" ++ sentTo b!"/queue/a" ++ givenUp ++ usedAgain ++ [.conn 0 (.sub true), .flush 0, .proc] ++ hangUp [1]

theorem over_of {s : Sys} {c : Nat} (h : s.conns[c]?.map (·.stage) = some .closed) (hr : s.reqCh = []) (ht : s.todo = []) : Spec.Over s c := by
  cases hk : s.conns[c]? with
  | none => rw [hk] at h; cases h
  | some k =>
    rw [hk] at h
    simp only [Option.map_some, Option.some.injEq] at h
    exact ⟨⟨k, hk, h⟩, by rw [hr]; simp, by rw [ht]; simp, by rw [ht]; simp⟩

theorem ghost_some : (Sys.init.run sampleCfg ghostRun).isSome = true := by decide +kernel

/-- The state after it. -/
def ghostSys : Sys := (Sys.init.run sampleCfg ghostRun).get ghost_some

/-- **C86** fails for queues: a client gives a subscription up while a message is on its way to it, and uses the id again. The message is written to it, and the subscription
it has given up is put back into the list of its queue. It is still there when the connection has ended and nothing is left to be done. -/
theorem C86_false : ∃ es s, Sys.init.run sampleCfg es = some s ∧ s.crashed = false ∧ Spec.Over s 0 ∧ s.reqCh = [] ∧ s.todo = [] ∧ (∀ k ∈ s.conns, k.wfail = false) ∧
    s.queues.list b!"/queue/a" = [⟨0, 0⟩] :=
  ⟨ghostRun, ghostSys, (Option.some_get _).symm, by decide +kernel, over_of (by decide +kernel) (by decide +kernel) (by decide +kernel), by decide +kernel, by decide +kernel,
    by decide +kernel, by decide +kernel⟩

/-- After that, a third client subscribes to the queue, and the second one sends a message to it. -/
def lostRun : List Sys.Ev := connectRun 2 ++ frameRun 2 (queueSub b!"7" b!"auto") ++ sentTo b!"/queue/a"

theorem lost_some : (ghostSys.run sampleCfg lostRun).isSome = true := by decide +kernel

/-- The state after it. -/
def lostSys : Sys := (ghostSys.run sampleCfg lostRun).get lost_some

/-- The message. -/
def lostMsg : Msg := ⟨⟨1, 1⟩, ⟨b!"MESSAGE", [(b!"destination", b!"/queue/a")], [1]⟩⟩

theorem lost_from : Sys.init.run sampleCfg (ghostRun ++ lostRun) = some lostSys := by
  rw [sysRun_append ghostRun lostRun _ ghostSys (Option.some_get _).symm]; exact (Option.some_get _).symm

/-- The connections that are there now stay, and what they have done. -/
theorem messages_stay {cfg : Config} {es es' : List Sys.Ev} {s s' : Sys} (h : Sys.init.run cfg es = some s) (h' : s.run cfg es' = some s') (hc : s'.crashed = false)
    {c : Nat} {o : Msg} (ho : ∃ k, s.conns[c]? = some k ∧ o ∈ Spec.messages c 0 k.effective) : ∃ k, s'.conns[c]? = some k ∧ o ∈ Spec.messages c 0 k.effective := by
  have hi := (sys_induction (P := fun _ => True) trivial (fun _ _ _ _ _ _ => trivial) es _ h (not_crashed h' hc)).1
  refine (sys_induction_from (P := fun s' => ∃ k, s'.conns[c]? = some k ∧ o ∈ Spec.messages c 0 k.effective) (fun s1 e s2 hi hp hs => ?_) es' _ s' ⟨hi, ho⟩ h' hc).2
  obtain ⟨k1, h1, h2⟩ := hp
  obtain ⟨k2, l, h3, h4⟩ := effective_grows hi hs h1
  exact ⟨k2, h3, by rw [h4, messages_append]; exact List.mem_append_left _ h2⟩

/-- **C86** fails, and a message is lost: it is sent after the connection has ended, while another client waits for messages of the queue. It is put into the channel of the connection that
has ended, and stays there in every continuation. No write fails. -/
theorem C86_lost_false : ∃ es es1 s s1 o, Sys.init.run sampleCfg es = some s ∧ Spec.Over s 0 ∧ s.run sampleCfg es1 = some s1 ∧ s1.crashed = false ∧
    ¬ Spec.AcceptedFor s b!"/queue/a" o ∧ Spec.AcceptedFor s1 b!"/queue/a" o ∧ s1.queues.list b!"/queue/a" = [⟨2, 0⟩] ∧ (∀ k ∈ s1.conns, k.wfail = false) ∧
    ∀ es' s', s1.run sampleCfg es' = some s' → s'.crashed = false →
      ∃ k', s'.conns[0]? = some k' ∧ k'.stage = .closed ∧ o.tag ∈ Spec.allocatedTo k' k'.subCh ∧ o.tag ∉ Spec.pendingRequests s' ++ Spec.stored s' b!"/queue/a" ++ Spec.finished s' := by
  have hq : Spec.IsQueue b!"/queue/a" := by unfold Spec.IsQueue; decide +kernel
  have hin : ∃ k, lostSys.conns[1]? = some k ∧ lostMsg ∈ Spec.messages 1 0 k.effective := by
    have fact : lostSys.conns[1]?.map (fun k => decide (lostMsg ∈ Spec.messages 1 0 k.effective)) = some true := by decide +kernel
    cases hk : lostSys.conns[1]? with
    | none => rw [hk] at fact; cases fact
    | some k => rw [hk] at fact; exact ⟨k, rfl, by simpa using fact⟩
  refine ⟨ghostRun, lostRun, ghostSys, lostSys, lostMsg, (Option.some_get _).symm,
    over_of (by decide +kernel) (by decide +kernel) (by decide +kernel), (Option.some_get _).symm, by decide +kernel, ?_, ?_, by decide +kernel, by decide +kernel, ?_⟩
  · rintro ⟨_, _, c, k, hk, hm⟩
    have fact : ghostSys.conns.zipIdx.all (fun x => decide (lostMsg ∉ Spec.messages x.2 0 x.1.effective)) = true := by decide +kernel
    have := List.all_eq_true.1 fact (k, c) (List.mem_zipIdx_iff_getElem?.2 hk)
    exact of_decide_eq_true this hm
  · obtain ⟨k, h1, h2⟩ := hin
    exact ⟨hq, by decide +kernel, 1, k, h1, h2⟩
  · intro es' s' h' hc'
    have hcl : ∃ k, lostSys.conns[0]? = some k ∧ k.stage = .closed ∧ lostMsg.tag ∈ heldTags k := by
      have fact : lostSys.conns[0]?.map (fun k => (decide (k.stage = .closed), decide (lostMsg.tag ∈ heldTags k))) = some (true, true) := by decide +kernel
      cases hk : lostSys.conns[0]? with
      | none => rw [hk] at fact; cases fact
      | some k => rw [hk] at fact; exact ⟨k, rfl, by simpa using fact⟩
    obtain ⟨k0, hk0, hst0, hheld0⟩ := hcl
    obtain ⟨k', hk', hcl, _, hb⟩ := closed_run lost_from h' hc' hk0 hst0
    have hheld := hb _ hheld0
    have hrun : Sys.init.run sampleCfg ((ghostRun ++ lostRun) ++ es') = some s' := by rw [sysRun_append _ es' _ _ lost_from]; exact h'
    obtain ⟨ces, hr, _⟩ := conn_run hrun hc' hk'
    have h0 := (endOk_run hr).subList (by rw [hcl]; rfl)
    have hal : lostMsg.tag ∈ Spec.allocatedTo k' k'.subCh := by
      unfold heldTags at hheld
      rw [h0, List.append_nil] at hheld
      rw [allocatedTo_eq]; exact hheld
    refine ⟨k', hk', hcl, hal, ?_⟩
    obtain ⟨k1, hk1⟩ := messages_stay lost_from h' hc' hin
    have hone := C37_one_place_partial sampleCfg _ s' hrun hc' b!"/queue/a" lostMsg ⟨hq, by decide +kernel, 1, k1, hk1⟩
    have : 0 < (Spec.allocated s').count lostMsg.tag := by
      refine List.count_pos_iff.2 (List.mem_append_right _ (List.mem_flatMap.2 ⟨k', List.mem_of_getElem? hk', ?_⟩))
      rw [h0, List.append_nil]; exact hal
    simp only [List.count_append] at hone
    intro hm
    have hm := List.count_pos_iff.2 hm
    simp only [List.count_append] at hm
    omega

/-! ## The server stands still -/

/-- The queues `/queue/<n>`. -/
def nthQueue (n : Nat) : Bytes := b!"/queue/" ++ [UInt8.ofNat (n + 97)]

/-- The first client has id 1 for queue `n`; a message is put into its channel, it gives the subscription up and uses the id for queue `n + 1`, and the message is written. -/
def nextQueue (n : Nat) : List Sys.Ev :=
  sentTo (nthQueue n) ++ givenUp ++ frameRun 0 ⟨b!"SUBSCRIBE", [(b!"id", b!"1"), (b!"destination", nthQueue (n + 1))], []⟩ ++ [.conn 0 (.sub true), .flush 0, .proc]

/-- It does so 17 times, and hangs up. -/
def ghostsRun : List Sys.Ev := subscribedRun (nthQueue 0) ++ ((List.range 17).map nextQueue).flatten ++ hangUp [17]

theorem ghosts_some : (Sys.init.run sampleCfg ghostsRun).isSome = true := by decide +kernel

/-- The state after it. -/
def ghostsSys : Sys := (Sys.init.run sampleCfg ghostsRun).get ghosts_some

/-- The second client sends a message to each of the 17 queues. -/
def deadRun : List Sys.Ev := ((List.range 16).map (fun n => sentTo (nthQueue n))).flatten ++ frameRun 1 ⟨b!"SEND", [(b!"destination", nthQueue 16)], [1]⟩

theorem dead_some : (ghostsSys.run sampleCfg deadRun).isSome = true := by decide +kernel

/-- The state after it. -/
def deadSys : Sys := (ghostsSys.run sampleCfg deadRun).get dead_some

/-- **C86** fails, and the server stands still: a client leaves 17 subscriptions behind. After it has gone, another client sends 17 messages to the queues: the processor fills the channel
of the connection that has ended and waits for it for ever. -/
theorem C86_dead_false : ∃ es es1 s s1, Sys.init.run sampleCfg es = some s ∧ Spec.Over s 0 ∧ s.reqCh = [] ∧ s.todo = [] ∧ s.run sampleCfg es1 = some s1 ∧ s1.crashed = false ∧
    ∀ es' s', s1.run sampleCfg es' = some s' → Spec.ProcessorWaitsFor s' 0 ∧ Spec.Gone s' 0 ∧ s'.todo = s1.todo ∧ s1.reqCh <+: s'.reqCh := by
  refine ⟨ghostsRun, deadRun, ghostsSys, deadSys, (Option.some_get _).symm, over_of (by decide +kernel) (by decide +kernel) (by decide +kernel), by decide +kernel, by decide +kernel,
    (Option.some_get _).symm, by decide +kernel, fun es' s' h => ?_⟩
  cases hk : deadSys.conns[0]? with
  | none => exact absurd hk (by decide +kernel)
  | some k0 =>
    have fact : deadSys.conns[0]?.map (fun k => (decide (16 ≤ k.subCh.length), decide (k.stage = .closed), decide (k.outbox = []))) = some (true, true, true) := by decide +kernel
    rw [hk] at fact
    simp only [Option.map_some, Option.some.injEq, Prod.mk.injEq] at fact
    obtain ⟨f1, f3, f4⟩ := fact
    have head : ∃ t, deadSys.todo = .queue ⟨0, 16⟩ :: t := by
      have : (match deadSys.todo with | .queue r :: _ => decide (r = ⟨0, 16⟩) | _ => false) = true := by decide +kernel
      split at this
      · rename_i r t he; exact ⟨t, by rw [he]; rw [of_decide_eq_true this]⟩
      · cases this
    obtain ⟨t, hd⟩ := head
    have h0 : Jammed 0 k0 deadSys := ⟨Or.inr ⟨16, t, hd, of_decide_eq_true f1⟩, Or.inr ⟨of_decide_eq_true f4, of_decide_eq_true f3⟩⟩
    have hj := jam_run h0 es' _ s' ⟨⟨k0, hk, rfl, rfl, rfl, rfl, rfl⟩, rfl, List.prefix_refl _⟩ h
    obtain ⟨k, hk', a1, _⟩ := hj.conn
    exact ⟨(hj.waits h0).1, ⟨k, hk', a1.trans (of_decide_eq_true f3)⟩, hj.todo, hj.req⟩

/-! ## Examples -/

-- C86_topic: a subscriber of a topic hangs up; the topic knew its subscription before.
example : ∃ es es1 s0 s, Sys.init.run sampleCfg es = some s0 ∧ s0.topics.list b!"/topic/a" = [⟨0, 0⟩] ∧ Sys.init.run sampleCfg (es ++ es1) = some s ∧ s.crashed = false ∧ Spec.Over s 0 :=
  ⟨subscribedRun b!"/topic/a", hangUp [0], _, _, rfl, by decide +kernel, rfl, by decide +kernel, over_of (by decide +kernel) (by decide +kernel) (by decide +kernel)⟩

/-- The first client receives a message, gives the subscription up, and subscribes to the queue with another id; it hangs up. -/
def tidyRun : List Sys.Ev :=
  subscribedRun b!"/queue/a" ++ sentTo b!"/queue/a" ++ [.conn 0 (.sub true), .flush 0, .proc] ++ givenUp ++ frameRun 0 (queueSub b!"2" b!"client")

theorem tidy_some : (Sys.init.run sampleCfg tidyRun).isSome = true := by decide +kernel
theorem tidied_some : (Sys.init.run sampleCfg (tidyRun ++ hangUp [1])).isSome = true := by decide +kernel

/-- The state before it hangs up. -/
def tidySys0 : Sys := (Sys.init.run sampleCfg tidyRun).get tidy_some
/-- The state after it has hung up. -/
def tidySys1 : Sys := (Sys.init.run sampleCfg (tidyRun ++ hangUp [1])).get tidied_some

-- C86_queue_partial, C86_last_partial and C86_forever_partial: the client gives subscriptions up, but uses no id twice; the queue knew a subscription of it before it hung up.
example : tidySys0.queues.list b!"/queue/a" = [⟨0, 1⟩] ∧ tidySys1.crashed = false ∧ Spec.Over tidySys1 0 ∧
    ∃ k, tidySys1.conns[0]? = some k ∧ Spec.Simple k.hist ∧ Spec.idsAsked k.hist = [b!"1", b!"2"] ∧ Spec.turns ⟨0, 0⟩ k.log = [true, true, false] ∧
      Spec.turns ⟨0, 1⟩ k.log = [true, false] := by
  refine ⟨by decide +kernel, by decide +kernel, over_of (by decide +kernel) (by decide +kernel) (by decide +kernel), ?_⟩
  have fact : tidySys1.conns[0]?.map (fun k => (Spec.idsAsked k.hist, Spec.turns ⟨0, 0⟩ k.log, Spec.turns ⟨0, 1⟩ k.log)) =
      some ([b!"1", b!"2"], [true, true, false], [true, false]) := by decide +kernel
  cases hk : tidySys1.conns[0]? with
  | none => rw [hk] at fact; cases fact
  | some k =>
    rw [hk] at fact
    simp only [Option.map_some, Option.some.injEq, Prod.mk.injEq] at fact
    obtain ⟨f1, f2, f3⟩ := fact
    exact ⟨k, rfl, Or.inr (by rw [f1]; decide), f1, f2, f3⟩

-- C86_forever_partial: afterwards another client sends a message to the queue, and it stays there.
example : ∃ s', tidySys1.run sampleCfg (connectRun 2 ++ frameRun 2 queueSend) = some s' ∧ s'.crashed = false ∧ Spec.NoQueueHas tidySys1 0 ∧
    (s'.store.list b!"/queue/a").length = 1 := by
  refine ⟨_, (Option.some_get (by decide +kernel)).symm, by decide +kernel, ?_, by decide +kernel⟩
  have hk : ∃ k, tidySys1.conns[0]? = some k ∧ (Spec.idsAsked k.hist).Nodup := by
    have fact : tidySys1.conns[0]?.map (fun k => decide (Spec.idsAsked k.hist).Nodup) = some true := by decide +kernel
    cases hk : tidySys1.conns[0]? with
    | none => rw [hk] at fact; cases fact
    | some k => rw [hk] at fact; exact ⟨k, rfl, by simpa using fact⟩
  obtain ⟨k, hk, hn⟩ := hk
  exact C86_queue_partial sampleCfg (tidyRun ++ hangUp [1]) _ (Option.some_get _).symm (by decide +kernel) 0 (over_of (by decide +kernel) (by decide +kernel) (by decide +kernel)) k hk
    (Or.inr hn)

end Stomp.Server
