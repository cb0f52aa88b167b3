import Verif.Proofs.Server.Pending
import Verif.Spec.Ack
import Verif.Props.Server.Queues
import Verif.Model.Client.Frames
/-!
# Properties C41, C42, C45: acknowledgements, and what they do to the server
-/
namespace Stomp.Server
open Stomp
open Stomp.Spec (firstValue)

/-! ## C42 -/

/-- **C42** (part). The server does not panic in any execution in which every SEND that takes effect has a destination, and the connections
on which an ACK or NACK takes effect have made only subscriptions that need none: to topics, or with ack mode `auto` (or none).
Missing: the other executions; a single client can panic the server in several ways (the theorems below). -/
theorem C42_no_panic_partial (cfg : Config) (es : List Sys.Ev) (s : Sys) (h : Sys.init.run cfg es = some s)
    (hsend : ∀ (c : Nat) (k : Conn), s.conns[c]? = some k → ∀ f ∈ k.effective, f.command = b!"SEND" → (Spec.hdr f b!"destination").isSome)
    (hack : ∀ (c : Nat) (k : Conn), s.conns[c]? = some k → (∃ f ∈ k.effective, f.command = b!"ACK" ∨ f.command = b!"NACK") →
      ∀ q ∈ k.hist, q.command = b!"SUBSCRIBE" →
        (Spec.hdr q b!"ack").getD b!"auto" = b!"auto" ∨ ∀ d, Spec.hdr q b!"destination" = some d → ¬Spec.IsQueue d) :
    s.crashed = false := by
  cases hc : s.crashed with
  | false => rfl
  | true =>
    exfalso
    obtain ⟨c, k, hk, ⟨f, h1, h2, h3⟩ | ⟨h1, x, h2, h3, q, h4, h5⟩⟩ := crash_culprit h hc
    · have := hsend c k hk f h1 h2
      rw [show Spec.hdr f b!"destination" = none from h3] at this; cases this
    · rcases hack c k hk h1 q h4 h5.command with h6 | h6
      · exact h3.1 (h5.ack.symm.trans h6)
      · exact h6 x.dest h5.dest ((isQueue_iff _).1 h3.2)

/-- A client connects. -/
def connectRun (c : Nat) : List Sys.Ev := [.accept, .conn c (.recv sampleConnect), .conn c (.frame true true), .flush c, .proc]

/-- The server receives a frame from client `c` and processes it and the request it leads to. -/
def frameRun (c : Nat) (f : Frame) : List Sys.Ev := [.conn c (.recv f), .conn c (.frame true true), .flush c, .proc]

/-- A message for `/queue/a`. -/
def queueSend : Frame := ⟨b!"SEND", [(b!"destination", b!"/queue/a")], [1]⟩

/-- A subscription to `/queue/a`. -/
def queueSub (id mode : Bytes) : Frame := ⟨b!"SUBSCRIBE", [(b!"id", id), (b!"destination", b!"/queue/a"), (b!"ack", mode)], []⟩

/-- Client 0 has subscribed to `/queue/a` with the given mode, and has got the message client 1 has sent. -/
def ackRun (mode : Bytes) : List Sys.Ev :=
  connectRun 0 ++ connectRun 1 ++ frameRun 0 (queueSub b!"1" mode) ++ frameRun 1 queueSend ++ [.push, .conn 0 (.sub true)]

/-- **C42** fails (1): a SEND frame without a destination header. -/
theorem C42_no_destination_false : ∃ es s, Sys.init.run sampleCfg es = some s ∧ s.crashed = true :=
  ⟨connectRun 0 ++ frameRun 0 ⟨b!"SEND", [], []⟩, _, rfl, by decide +kernel⟩

/-- **C42** fails (2): the server does not check the ack mode of a SUBSCRIBE; if it is none of the three, the ACK of a message panics. -/
theorem C42_unknown_mode_false : ∃ es s, Sys.init.run sampleCfg es = some s ∧ s.crashed = true ∧
    (∀ k ∈ s.conns, ∀ f ∈ k.effective, f.command = b!"SEND" → (Spec.hdr f b!"destination").isSome) :=
  ⟨ackRun b!"banana" ++ [.conn 0 (.recv ⟨b!"ACK", [(b!"message-id", b!"1")], []⟩), .conn 0 (.frame true true), .flush 0], _, rfl, by decide +kernel, by decide +kernel⟩

/-- **C42** fails (3): a client follows the protocol to the letter; it acknowledges the message it got, and its queue is empty. The subscription goes back to the
queue while it is still marked as being in the list of the connection. -/
theorem C42_ack_false : ∃ es s, Sys.init.run sampleCfg es = some s ∧ s.crashed = true ∧
    s.conns.map (fun k => k.hist.drop 1) =
      [[queueSub b!"1" b!"client", ⟨b!"ACK", [(b!"subscription", b!"1"), (b!"message-id", b!"1")], []⟩], [queueSend]] :=
  ⟨ackRun b!"client" ++ frameRun 0 ⟨b!"ACK", [(b!"subscription", b!"1"), (b!"message-id", b!"1")], []⟩, _, rfl, by decide +kernel, by decide +kernel⟩

/-- **C42** fails (4): the same when another message is waiting in the queue: then it is the connection that panics, when it has delivered that message. -/
theorem C42_ack_stored_false : ∃ es s, Sys.init.run sampleCfg es = some s ∧ s.crashed = true ∧
    s.conns.map (fun k => k.hist.drop 1) =
      [[queueSub b!"1" b!"client", ⟨b!"ACK", [(b!"subscription", b!"1"), (b!"message-id", b!"1")], []⟩], [queueSend, queueSend]] :=
  ⟨ackRun b!"client" ++ frameRun 1 queueSend ++ frameRun 0 ⟨b!"ACK", [(b!"subscription", b!"1"), (b!"message-id", b!"1")], []⟩ ++ [.push, .conn 0 (.sub true), .flush 0],
    _, rfl, by decide +kernel, by decide +kernel⟩

/-- **C42** fails (5): a NACK of message 0, in any ack mode that needs acknowledgements. -/
theorem C42_nack_false : ∃ es s, Sys.init.run sampleCfg es = some s ∧ s.crashed = true ∧
    s.conns.map (fun k => k.hist.drop 1) = [[queueSub b!"1" b!"client-individual", ⟨b!"NACK", [(b!"message-id", b!"0")], []⟩], [queueSend]] :=
  ⟨ackRun b!"client-individual" ++ frameRun 0 ⟨b!"NACK", [(b!"message-id", b!"0")], []⟩ ++ [.flush 0, .proc, .push, .conn 0 (.sub true), .flush 0],
    _, rfl, by decide +kernel, by decide +kernel⟩

-- C42_no_panic_partial: a run with SENDs, deliveries in all modes and an ACK on a connection that needs none.
example : ∃ s, Sys.init.run sampleCfg (ackRun b!"client" ++ frameRun 1 queueSend ++
      [.conn 1 (.recv ⟨b!"ACK", [(b!"message-id", b!"1")], []⟩), .conn 1 (.frame true true)]) = some s ∧
    (∀ k ∈ s.conns, ∀ f ∈ k.effective, f.command = b!"SEND" → (Spec.hdr f b!"destination").isSome) ∧
    (∀ k ∈ s.conns, (∃ f ∈ k.effective, f.command = b!"ACK" ∨ f.command = b!"NACK") →
      ∀ q ∈ k.hist, q.command = b!"SUBSCRIBE" → (Spec.hdr q b!"ack").getD b!"auto" = b!"auto") ∧
    s.conns.map (fun k => k.effective.map (·.command)) = [[], [b!"SEND", b!"SEND", b!"ACK"]] :=
  ⟨_, rfl, by decide +kernel, by decide +kernel, by decide +kernel⟩

/-! ## C41 -/

/-- **C41** (part): the list of a connection's subscriptions that wait for acknowledgements. If the ack modes are the two that need acknowledgements,
an ACK releases exactly what it should — according to the message numbers the subscriptions have recorded. Missing: the server never records
the numbers (`C41_ack_false`). -/
theorem C41_list_ack_partial (heap : List Sub) (n : Nat) (l : List Nat)
    (hm : ∀ i ∈ l, (deref heap i).ack = b!"client" ∨ (deref heap i).ack = b!"client-individual") :
    ackLoop heap n l =
      (l.filter (fun i => !decide ((deref heap i).ack = b!"client" ∧ (deref heap i).msgId ≤ n ∨ (deref heap i).ack = b!"client-individual" ∧ (deref heap i).msgId = n)),
       l.filter (fun i => decide ((deref heap i).ack = b!"client" ∧ (deref heap i).msgId ≤ n ∨ (deref heap i).ack = b!"client-individual" ∧ (deref heap i).msgId = n)), false) := by
  induction l with
  | nil => rfl
  | cons i l ih =>
    have ih := ih (fun j hj => hm j (List.mem_cons_of_mem _ hj))
    have key : (deref heap i).isAckedBy n = some (decide ((deref heap i).ack = b!"client" ∧ (deref heap i).msgId ≤ n ∨
        (deref heap i).ack = b!"client-individual" ∧ (deref heap i).msgId = n)) := by
      unfold Sub.isAckedBy
      rcases hm i (by simp) with hi | hi
      · rw [hi, if_neg (by decide), if_pos (by rfl)]
        have : b!"client" ≠ b!"client-individual" := by decide
        simp [this]
      · rw [hi, if_neg (by decide), if_neg (by decide), if_pos (by rfl)]
        have : b!"client-individual" ≠ b!"client" := by decide
        simp [this, eq_comm]
    unfold ackLoop
    rw [key, ih]
    by_cases hx : (deref heap i).ack = b!"client" ∧ (deref heap i).msgId ≤ n ∨ (deref heap i).ack = b!"client-individual" ∧ (deref heap i).msgId = n
    · simp only [List.filter_cons, decide_eq_true hx]; rfl
    · simp only [List.filter_cons, decide_eq_false hx]; rfl

/-- **C41** (part): a NACK releases exactly the subscriptions whose recorded number it names. -/
theorem C41_list_nack_partial (heap : List Sub) (n : Nat) (l : List Nat) :
    nackLoop heap n l = (l.filter (fun i => !decide ((deref heap i).msgId = n)), l.filter (fun i => decide ((deref heap i).msgId = n))) := by
  induction l with
  | nil => rfl
  | cons i l ih =>
    unfold nackLoop
    rw [ih]
    unfold Sub.isNackedBy
    by_cases hx : (deref heap i).msgId = n
    · simp [hx]
    · have : n ≠ (deref heap i).msgId := fun e => hx e.symm
      simp [hx, this]

-- C41_list_ack_partial, C41_list_nack_partial: three subscriptions with numbers 1, 2, 3.
example : ackLoop [⟨[], [], b!"client", 1, true, none⟩, ⟨[], [], b!"client-individual", 2, true, none⟩, ⟨[], [], b!"client", 3, true, none⟩] 2 [0, 1, 2] = ([2], [0, 1], false) ∧
    nackLoop [⟨[], [], b!"client", 1, true, none⟩, ⟨[], [], b!"client-individual", 2, true, none⟩, ⟨[], [], b!"client", 3, true, none⟩] 1 [0, 1, 2] = ([1, 2], [0]) := by
  decide +kernel

theorem deref_of_lt {heap : List Sub} {i : Nat} (h : i < heap.length) : heap[i]? = some (deref heap i) := by
  unfold deref; rw [List.getD_eq_getElem?_getD, List.getElem?_eq_getElem h]; rfl

theorem pendings_mem {k : Conn} {p : Spec.Pending} (h : p ∈ Spec.pendings k) : ∃ i m, i ∈ k.subList ∧ (deref k.heap i).frame = some m ∧
    p = ⟨m.tag, Spec.hdr m.frame b!"message-id", (deref k.heap i).ack⟩ := by
  unfold Spec.pendings at h
  obtain ⟨i, h1, h2⟩ := List.mem_filterMap.1 h
  cases hx : k.heap[i]? with
  | none => rw [hx] at h2; cases h2
  | some x =>
    have e : x = deref k.heap i := by
      have := (List.getElem?_eq_some_iff.1 hx).1
      rw [deref_of_lt this] at hx; injection hx with hx; exact hx.symm
    subst e
    rw [hx] at h2
    cases hm : (deref k.heap i).frame with
    | none => simp [hm] at h2
    | some m =>
      simp only [Option.bind_some, hm, Option.map_some, Option.some.injEq] at h2
      exact ⟨i, m, h1, hm, h2.symm⟩

/-- The state of the server of a run. -/
theorem reach {cfg : Config} {es : List Sys.Ev} {s : Sys} (h : Sys.init.run cfg es = some s) (hc : s.crashed = false) {c : Nat} {k : Conn}
    (hk : s.conns[c]? = some k) : Gate cfg k ∧ Loc k.core ∧ HeapFrom k ∧ PendOk k := by
  have hi := (sys_induction (P := fun _ => True) trivial (fun _ _ _ _ _ _ => trivial) es s h hc).1
  obtain ⟨ces, hr, _⟩ := conn_run h hc hk
  exact ⟨gate_run cfg c ces k hr, hi.loc c k hk, heapFrom_run hr, pend_run h hc hk⟩

theorem msgId_zero {k : Conn} (h : HeapFrom k) (i : Nat) : (deref k.heap i).msgId = 0 := by
  by_cases hl : i < k.heap.length
  · obtain ⟨q, _, hm⟩ := h (deref k.heap i) (by unfold deref; rw [List.getD_eq_getElem?_getD, List.getElem?_eq_getElem hl]; exact List.getElem_mem _)
    exact hm.msgId
  · rw [deref_ge _ _ (by omega)]; rfl

theorem filterMap_congr_mem {α β : Type} {l : List α} {g h : α → Option β} (e : ∀ a ∈ l, g a = h a) : l.filterMap g = l.filterMap h := by
  induction l with
  | nil => rfl
  | cons a l ih => rw [List.filterMap_cons, List.filterMap_cons, e a (by simp), ih (fun b hb => e b (List.mem_cons_of_mem _ hb))]

theorem pendings_keep {k k' : Conn} {acked : List Nat} (hd : ∀ i ∈ k'.subList, i ∉ acked) (hh : k'.heap = Conn.clearFrames k.heap acked) :
    Spec.pendings k' = k'.subList.filterMap (fun i => (k.heap[i]?).bind (fun x => x.frame.map (fun m => ⟨m.tag, Spec.hdr m.frame b!"message-id", x.ack⟩))) := by
  unfold Spec.pendings
  have hlen : k'.heap.length = k.heap.length := by
    rw [hh]; unfold Conn.clearFrames
    generalize k.heap = heap
    clear hh hd
    induction acked generalizing heap with
    | nil => rfl
    | cons a l ih => rw [List.foldl_cons, ih]; simp
  apply filterMap_congr_mem
  intro i hi
  have : k'.heap[i]? = k.heap[i]? := by
    by_cases hlt : i < k.heap.length
    · rw [deref_of_lt hlt, deref_of_lt (by omega), hh, clearFrames_ne (hd i hi)]
    · rw [List.getElem?_eq_none (by omega), List.getElem?_eq_none (by omega)]
  rw [this]

/-- What the server really does with an ACK: in any state, if all pending messages are in one of the two modes that need acknowledgements, an ACK for `n` leaves exactly
the messages in mode `client-individual`, and not even those if `n` is 0 — whatever numbers the messages were sent with. -/
theorem ack_actual {cfg : Config} {k k' : Conn} {ok1 ok2 : Bool} {f : Frame} {q : List Frame} {n : Nat} (hg : Gate cfg k) (hl : Loc k.core) (hf0 : HeapFrom k)
    (hm : ∀ p ∈ Spec.pendings k, p.mode = b!"client" ∨ p.mode = b!"client-individual")
    (hs : k.step cfg (.frame ok1 ok2) = some k') (hq : k.inq = f :: q) (hc : k.connected = true) (hf : f.command = b!"ACK")
    (ht : Spec.hdr f b!"transaction" = none) (hr : Spec.hdr f b!"receipt" = none ∨ ok1 = true ∧ k.wfail = false) (hn : Spec.names f n) :
    Spec.pendings k' = (Spec.pendings k).filter (fun p => decide (p.mode = b!"client-individual" ∧ n ≠ 0)) ∧
    (∀ i ∈ k.subList, ∀ m, (deref k.heap i).frame = some m → ¬((deref k.heap i).ack = b!"client-individual" ∧ n ≠ 0) → m.tag ∈ k'.acked) ∧
    k'.stage = .run := by
  have full : ∀ i ∈ k.subList, ∃ m, (deref k.heap i).frame = some m := fun i hi => Option.isSome_iff_exists.1 (hl.full i (Or.inr hi))
  have hm' : ∀ i ∈ k.subList, (deref k.heap i).ack = ackClient ∨ (deref k.heap i).ack = ackClientIndividual := by
    intro i hi
    obtain ⟨m, h1⟩ := full i hi
    refine hm ⟨m.tag, Spec.hdr m.frame b!"message-id", (deref k.heap i).ack⟩ ?_
    unfold Spec.pendings
    refine List.mem_filterMap.2 ⟨i, hi, ?_⟩
    rw [deref_of_lt (lt_of_frame h1)]
    simp [h1]
  obtain ⟨h1, h2, h3, h4⟩ := ack_step hg hs hq hc hf ht hr ((ackId_ok f n).2 hn)
  rw [ackLoop_zero (msgId_zero hf0) n _ hm'] at h1 h2 h3
  dsimp only at h1 h2 h3
  refine ⟨?_, ?_, h4⟩
  · rw [pendings_keep (acked := k.subList.filter (fun i => decide (¬((deref k.heap i).ack = ackClientIndividual ∧ n ≠ 0)))) ?_ h2, h1]
    · unfold Spec.pendings
      have hx : ∀ i ∈ k.subList, i < k.heap.length := fun i hi => by obtain ⟨m, hm⟩ := full i hi; exact lt_of_frame hm
      generalize k.subList = l at hx full
      induction l with
      | nil => rfl
      | cons i l ih =>
        have ih := ih (fun j hj => hx j (List.mem_cons_of_mem _ hj)) (fun j hj => full j (List.mem_cons_of_mem _ hj))
        obtain ⟨m, hm⟩ := full i (by simp)
        have e : (k.heap[i]?).bind (fun x => x.frame.map (fun m => (⟨m.tag, Spec.hdr m.frame b!"message-id", x.ack⟩ : Spec.Pending))) =
            some ⟨m.tag, Spec.hdr m.frame b!"message-id", (deref k.heap i).ack⟩ := by
          rw [deref_of_lt (hx i (by simp))]; simp [hm]
        rw [List.filter_cons, List.filterMap_cons, e, List.filter_cons]
        by_cases hp : (deref k.heap i).ack = ackClientIndividual ∧ n ≠ 0
        · rw [if_pos (decide_eq_true hp), List.filterMap_cons, e]
          dsimp only
          rw [if_pos (decide_eq_true (p := (deref k.heap i).ack = b!"client-individual" ∧ n ≠ 0) hp), ih]
        · rw [if_neg (fun h => hp (of_decide_eq_true h))]
          dsimp only
          rw [if_neg (fun h => hp (of_decide_eq_true (p := (deref k.heap i).ack = b!"client-individual" ∧ n ≠ 0) h)), ih]
    · intro i hi hi'
      rw [h1] at hi
      have a := (List.mem_filter.1 hi).2
      have b := (List.mem_filter.1 hi').2
      exact (of_decide_eq_true b) (of_decide_eq_true a)
  · intro i hi m hmf hne
    rw [h3]
    refine List.mem_append_right _ (List.mem_filterMap.2 ⟨i, List.mem_filter.2 ⟨hi, decide_eq_true hne⟩, ?_⟩)
    rw [hmf]; rfl

theorem nack_actual {cfg : Config} {k k' : Conn} {ok1 ok2 : Bool} {f : Frame} {q : List Frame} {n : Nat} (hg : Gate cfg k) (hf0 : HeapFrom k)
    (hs : k.step cfg (.frame ok1 ok2) = some k') (hq : k.inq = f :: q) (hc : k.connected = true) (hf : f.command = b!"NACK")
    (ht : Spec.hdr f b!"transaction" = none) (hr : Spec.hdr f b!"receipt" = none ∨ ok1 = true ∧ k.wfail = false) (hn : Spec.names f n) :
    Spec.pendings k' = if n = 0 then [] else Spec.pendings k := by
  obtain ⟨h1, h2, h4⟩ := nack_step hg hs hq hc hf ht hr ((ackId_ok f n).2 hn)
  rw [nackLoop_zero (msgId_zero hf0) n] at h1 h2
  split
  · rename_i h0
    rw [if_pos h0] at h1
    unfold Spec.pendings; rw [h1]; rfl
  · rename_i h0
    rw [if_neg h0] at h1 h2
    rw [pendings_keep (acked := []) (by simp) h2, h1]; rfl

/-- **C41** (part): what the server really does. In every reachable state in which the pending messages are in one of the two modes that need
acknowledgements, an ACK for `n` releases exactly the messages in mode `client` (and all messages, if `n` is 0); the others stay, in order. Missing: the numbers
of the messages play no role. -/
theorem C41_ack_actual_partial (cfg : Config) (es : List Sys.Ev) (s : Sys) (h : Sys.init.run cfg es = some s) (hcr : s.crashed = false) (c : Nat) (k k' : Conn)
    (hk : s.conns[c]? = some k) (hm : ∀ p ∈ Spec.pendings k, p.mode = b!"client" ∨ p.mode = b!"client-individual")
    (ok1 ok2 : Bool) (f : Frame) (q : List Frame) (n : Nat) (hq : k.inq = f :: q) (hc : k.connected = true) (hf : f.command = b!"ACK")
    (ht : Spec.hdr f b!"transaction" = none) (hr : Spec.hdr f b!"receipt" = none ∨ ok1 = true ∧ k.wfail = false) (hn : Spec.names f n)
    (hs : k.step cfg (.frame ok1 ok2) = some k') :
    Spec.Releases (fun p => p.mode = b!"client" ∨ n = 0) (Spec.pendings k) (Spec.pendings k') := by
  obtain ⟨hg, hl, hf0, _⟩ := reach h hcr hk
  rw [(ack_actual hg hl hf0 hm hs hq hc hf ht hr hn).1]
  refine ⟨List.filter_sublist, fun p hp => ?_⟩
  rw [List.mem_filter, decide_eq_true_iff, not_or]
  refine ⟨fun ⟨_, h1, h2⟩ => ⟨by rw [h1]; decide, h2⟩, fun ⟨h1, h2⟩ => ⟨hp, ?_, h2⟩⟩
  rcases hm p hp with h3 | h3
  · exact absurd h3 h1
  · exact h3

/-- **C41** (part): the ACKs that do what they should: those for which every pending message is either in mode `client` and has a number up to `n`, or is in mode
`client-individual` and has another number than `n`. -/
theorem C41_ack_partial (cfg : Config) (es : List Sys.Ev) (s : Sys) (n : Nat) (h : Sys.init.run cfg es = some s) (hcr : s.crashed = false) (c : Nat) (k k' : Conn)
    (hk : s.conns[c]? = some k)
    (hm : ∀ p ∈ Spec.pendings k, p.mode = b!"client" ∧ (∃ j, Spec.Numbered p j ∧ j ≤ n) ∨ p.mode = b!"client-individual" ∧ n ≠ 0 ∧ ¬Spec.Numbered p n)
    (ok1 ok2 : Bool) (f : Frame) (q : List Frame) (hq : k.inq = f :: q) (hc : k.connected = true) (hf : f.command = b!"ACK")
    (ht : Spec.hdr f b!"transaction" = none) (hr : Spec.hdr f b!"receipt" = none ∨ ok1 = true ∧ k.wfail = false) (hn : Spec.names f n)
    (hs : k.step cfg (.frame ok1 ok2) = some k') :
    Spec.Releases (Spec.AckReleases n) (Spec.pendings k) (Spec.pendings k') := by
  obtain ⟨h1, h2⟩ := C41_ack_actual_partial cfg es s h hcr c k k' hk (fun p hp => (hm p hp).imp (·.1) (·.1)) ok1 ok2 f q n hq hc hf ht hr hn hs
  refine ⟨h1, fun p hp => (h2 p hp).trans (not_congr ?_)⟩
  rcases hm p hp with ⟨h3, j, h4, h5⟩ | ⟨h3, h4, h5⟩
  · exact ⟨fun _ => ⟨j, h4, Or.inl ⟨h3, h5⟩⟩, fun _ => Or.inl h3⟩
  · constructor
    · rintro (h6 | h6)
      · rw [h3] at h6; exact absurd h6 (by decide)
      · exact absurd h6 h4
    · rintro ⟨j, h6, ⟨h7, _⟩ | ⟨_, rfl⟩⟩
      · rw [h3] at h7; exact absurd h7 (by decide)
      · exact absurd h6 h5

/-- **C41** (part): a NACK for `n` releases nothing, or everything if `n` is 0. So those NACKs do what they should that name no pending message, other than 0. -/
theorem C41_nack_actual_partial (cfg : Config) (es : List Sys.Ev) (s : Sys) (h : Sys.init.run cfg es = some s) (hcr : s.crashed = false) (c : Nat) (k k' : Conn)
    (hk : s.conns[c]? = some k) (ok1 ok2 : Bool) (f : Frame) (q : List Frame) (n : Nat) (hq : k.inq = f :: q) (hc : k.connected = true) (hf : f.command = b!"NACK")
    (ht : Spec.hdr f b!"transaction" = none) (hr : Spec.hdr f b!"receipt" = none ∨ ok1 = true ∧ k.wfail = false) (hn : Spec.names f n)
    (hs : k.step cfg (.frame ok1 ok2) = some k') :
    Spec.Releases (fun _ => n = 0) (Spec.pendings k) (Spec.pendings k') ∧
    (n ≠ 0 → (∀ p ∈ Spec.pendings k, ¬Spec.Numbered p n) → Spec.Releases (Spec.NackReleases n) (Spec.pendings k) (Spec.pendings k')) := by
  obtain ⟨hg, _, hf0, _⟩ := reach h hcr hk
  have h1 := nack_actual hg hf0 hs hq hc hf ht hr hn
  refine ⟨?_, fun h0 hp => ?_⟩
  · rw [h1]
    by_cases h0 : n = 0
    · rw [if_pos h0]; exact ⟨List.nil_sublist _, fun p _ => ⟨nofun, fun h => absurd h0 h⟩⟩
    · rw [if_neg h0]; exact ⟨List.Sublist.refl _, fun p hp => ⟨fun _ => h0, fun _ => hp⟩⟩
  · rw [h1, if_neg h0]
    exact ⟨List.Sublist.refl _, fun p hp' => ⟨fun _ => hp p hp', fun _ => hp'⟩⟩

/-- Client 0 has subscribed to `/queue/a` twice with the given modes, and has got the two messages client 1 has sent. -/
def twoRun (mode mode' : Bytes) : List Sys.Ev :=
  connectRun 0 ++ connectRun 1 ++ frameRun 0 (queueSub b!"1" mode) ++ frameRun 0 (queueSub b!"2" mode') ++
    frameRun 1 queueSend ++ [.push, .conn 0 (.sub true)] ++ frameRun 1 queueSend ++ [.push, .conn 0 (.sub true)]

/-- **C41** fails (1): an ACK of message 1 also releases message 2. -/
theorem C41_ack_too_much_false : ∃ es s k k', Sys.init.run sampleCfg es = some s ∧ s.crashed = false ∧ s.conns[0]? = some k ∧
    k.inq = [⟨b!"ACK", [(b!"message-id", b!"1")], []⟩] ∧ k.step sampleCfg (.frame true true) = some k' ∧
    Spec.pendings k = [⟨⟨1, 0⟩, some b!"1", b!"client"⟩, ⟨⟨1, 1⟩, some b!"2", b!"client"⟩] ∧ Spec.pendings k' = [] :=
  ⟨twoRun b!"client" b!"client" ++ [.conn 0 (.recv ⟨b!"ACK", [(b!"message-id", b!"1")], []⟩)], _, _, _, rfl, by decide +kernel, rfl, by decide +kernel, rfl, by decide +kernel, by decide +kernel⟩

/-- **C41** fails (2): in mode `client-individual`, an ACK of message 1 does not release it. -/
theorem C41_ack_too_little_false : ∃ es s k k', Sys.init.run sampleCfg es = some s ∧ s.crashed = false ∧ s.conns[0]? = some k ∧
    k.inq = [⟨b!"ACK", [(b!"message-id", b!"1")], []⟩] ∧ k.step sampleCfg (.frame true true) = some k' ∧
    Spec.pendings k = [⟨⟨1, 0⟩, some b!"1", b!"client-individual"⟩] ∧ Spec.pendings k' = Spec.pendings k :=
  ⟨ackRun b!"client-individual" ++ [.conn 0 (.recv ⟨b!"ACK", [(b!"message-id", b!"1")], []⟩)], _, _, _, rfl, by decide +kernel, rfl, by decide +kernel, rfl, by decide +kernel, by decide +kernel⟩

/-- **C41** fails (3): a NACK of message 1 does not release it. -/
theorem C41_nack_false : ∃ es s k k', Sys.init.run sampleCfg es = some s ∧ s.crashed = false ∧ s.conns[0]? = some k ∧
    k.inq = [⟨b!"NACK", [(b!"message-id", b!"1")], []⟩] ∧ k.step sampleCfg (.frame true true) = some k' ∧
    Spec.pendings k = [⟨⟨1, 0⟩, some b!"1", b!"client"⟩] ∧ Spec.pendings k' = Spec.pendings k :=
  ⟨ackRun b!"client" ++ [.conn 0 (.recv ⟨b!"NACK", [(b!"message-id", b!"1")], []⟩)], _, _, _, rfl, by decide +kernel, rfl, by decide +kernel, rfl, by decide +kernel, by decide +kernel⟩

-- C41_ack_actual_partial, C41_ack_partial: messages 1 (client) and 2 (client-individual) are pending, and an ACK of 1 releases the first.
example : ∃ s k k', Sys.init.run sampleCfg (twoRun b!"client" b!"client-individual" ++ [.conn 0 (.recv ⟨b!"ACK", [(b!"message-id", b!"1")], []⟩)]) = some s ∧
    s.crashed = false ∧ s.conns[0]? = some k ∧ k.connected = true ∧ k.step sampleCfg (.frame true true) = some k' ∧
    Spec.pendings k = [⟨⟨1, 0⟩, some b!"1", b!"client"⟩, ⟨⟨1, 1⟩, some b!"2", b!"client-individual"⟩] ∧
    Spec.pendings k' = [⟨⟨1, 1⟩, some b!"2", b!"client-individual"⟩] :=
  ⟨_, _, _, rfl, by decide +kernel, rfl, by decide +kernel, rfl, by decide +kernel, by decide +kernel⟩

-- C41_nack_actual_partial: the run of C41_nack_false with a NACK of message 0.
example : ∃ s k k', Sys.init.run sampleCfg (ackRun b!"client" ++ [.conn 0 (.recv ⟨b!"NACK", [(b!"message-id", b!"0")], []⟩)]) = some s ∧
    s.crashed = false ∧ s.conns[0]? = some k ∧ k.connected = true ∧ k.step sampleCfg (.frame true true) = some k' ∧
    Spec.pendings k = [⟨⟨1, 0⟩, some b!"1", b!"client"⟩] ∧ Spec.pendings k' = [] :=
  ⟨_, _, _, rfl, by decide +kernel, rfl, by decide +kernel, rfl, by decide +kernel, by decide +kernel⟩

/-! ## C45 -/

/-- The acknowledgement of the client library works with this server, for a version and an ack mode: whatever message `m` the server has written to the client and the
client has not acknowledged, `createAckNackFrame` makes a frame of it, and when the server processes that frame the message is acknowledged and the session
goes on. (The client library cannot subscribe with other ack modes than the three.) -/
def Spec.AckWorks (cfg : Config) (version : Bytes) (mode : Client.AckMode) : Prop :=
  ∀ (es : List Sys.Ev) (s : Sys), Sys.init.run cfg es = some s → s.crashed = false → ∀ (c : Nat) (k : Conn), s.conns[c]? = some k → k.version = version →
  (∀ p ∈ Spec.pendings k, p.mode = b!"client" ∨ p.mode = b!"client-individual") →
  ∀ (i : Nat) (m : Msg), i ∈ k.subList → (deref k.heap i).ack = mode.str → (deref k.heap i).frame = some m → ⟨some m.frame, some m.tag⟩ ∈ k.out →
  ∃ g, Client.createAckNackFrame version ⟨some m.frame.header, some ⟨(deref k.heap i).id, mode⟩, true⟩ true = .ok (some g) ∧
    ∀ q k' ok1 ok2, k.inq = g :: q → k.step cfg (.frame ok1 ok2) = some k' → m.tag ∈ k'.acked ∧ k'.stage = .run

/-- Every message waiting for an acknowledgement has been written. -/
theorem C45_written (cfg : Config) (es : List Sys.Ev) (s : Sys) (h : Sys.init.run cfg es = some s) (hcr : s.crashed = false) (c : Nat) (k : Conn)
    (hk : s.conns[c]? = some k) (i : Nat) (m : Msg) (hi : i ∈ k.subList) (hm : (deref k.heap i).frame = some m) : ⟨some m.frame, some m.tag⟩ ∈ k.out := by
  obtain ⟨n, hw⟩ := (reach h hcr hk).2.2.2 i hi m hm
  exact hw.out

theorem connected_of {cfg : Config} {k : Conn} (hg : Gate cfg k) {i : Nat} (hi : i ∈ k.subList) : k.connected = true := by
  cases hc : k.connected with
  | true => rfl
  | false => rw [(hg.closed hc).2.2.2.2.1] at hi; cases hi

/-- **C45** (part): it works for version 1.1 and ack mode `client`. Missing: version 1.2 (`C45_v12_false`) and mode `client-individual` (`C45_individual_false`). -/
theorem C45_client_v11_partial (cfg : Config) : Spec.AckWorks cfg b!"1.1" .client := by
  intro es s h hcr c k hk hv hm i m hi ha hmf _
  obtain ⟨hg, hl, hf0, hp⟩ := reach h hcr hk
  obtain ⟨n, hw⟩ := hp i hi m hmf
  refine ⟨⟨b!"ACK", [(b!"subscription", (deref k.heap i).id), (b!"message-id", fmtUint n)], []⟩, ?_, fun q k' ok1 ok2 hq hs => ?_⟩
  · unfold Client.createAckNackFrame
    have : m.frame.header.contains Hdr.messageId = some (fmtUint n) := by rw [contains_eq]; exact hw.id
    simp only [Bool.not_true, Bool.false_and, if_neg (show (Client.AckMode.client = .auto) → False by nofun)]
    rw [if_neg nofun, if_pos (by decide), this]
    rfl
  · have hn : Spec.names ⟨b!"ACK", [(b!"subscription", (deref k.heap i).id), (b!"message-id", fmtUint n)], []⟩ n :=
      ⟨fmtUint n, Or.inr ⟨rfl, rfl⟩, fmtUint_numeral n, hw.lt⟩
    obtain ⟨_, h2, h3⟩ := ack_actual hg hl hf0 hm hs hq (connected_of hg hi) rfl rfl (Or.inl rfl) hn
    exact ⟨h2 i hi m hmf (fun h => by rw [ha] at h; exact absurd h.1 (by decide)), h3⟩

/-- **C45** fails (1): for version 1.2 the client names the message in the header `id`; the server looks for the headers `ack` and `message-id`. Not one
acknowledgement of the client library is ever accepted: the server sends an ERROR frame and closes the connection. -/
theorem C45_v12_rejected_false (cfg : Config) (es : List Sys.Ev) (s : Sys) (h : Sys.init.run cfg es = some s) (hcr : s.crashed = false) (c : Nat) (k : Conn) (hk : s.conns[c]? = some k)
    (m : Client.MsgInfo) (ack : Bool) (g : Frame) (hg : Client.createAckNackFrame b!"1.2" m ack = .ok (some g)) (q : List Frame) (hq : k.inq = g :: q)
    (hc : k.connected = true) (k' : Conn) (ok1 ok2 : Bool) (hs : k.step cfg (.frame ok1 ok2) = some k') :
    k'.acked = k.acked ∧ Spec.pendings k' = Spec.pendings k ∧ k'.stage ≠ .run := by
  obtain ⟨hgt, hl, hf0, hp⟩ := reach h hcr hk
  have hgf : ∃ a, g = ⟨if ack then Cmd.ack else Cmd.nack, [(b!"id", a)], []⟩ := by
    unfold Client.createAckNackFrame at hg
    split at hg
    · cases hg
    · split at hg
      · split at hg
        · split at hg <;> cases hg
        · dsimp only at hg
          rw [if_neg (by decide), if_pos (by decide)] at hg
          split at hg
          · rename_i a _
            injection hg with hg; injection hg with hg; subst hg
            exact ⟨a, by cases ack <;> rfl⟩
          · cases hg
      · cases hg
  obtain ⟨a, rfl⟩ := hgf
  obtain ⟨hst, hob, c1, f', r, hh, hfin⟩ := frame_step hgt hs hq hc
  have hcmd : (⟨if ack then Cmd.ack else Cmd.nack, [(b!"id", a)], []⟩ : Frame).command ∈ [Cmd.ack, Cmd.nack] := by cases ack <;> simp
  have hbad : Conn.ackId ⟨if ack then Cmd.ack else Cmd.nack, [(b!"id", a)], []⟩ = .error (.missingHeader Hdr.messageId) := rfl
  have notcmd : ∀ {x : Bytes}, x ∉ [Cmd.ack, Cmd.nack] → (⟨if ack then Cmd.ack else Cmd.nack, [(b!"id", a)], []⟩ : Frame).command = x → False :=
    fun h1 h2 => h1 (by rw [← h2]; exact hcmd)
  have tx : ∀ {t}, (⟨if ack then Cmd.ack else Cmd.nack, [(b!"id", a)], []⟩ : Frame).header.contains Hdr.transaction = some t → False := nofun
  have done : ∀ e, c1 = { k with inq := q, hist := k.hist ++ [⟨if ack then Cmd.ack else Cmd.nack, [(b!"id", a)], []⟩] } → r = .err e →
      k'.acked = k.acked ∧ Spec.pendings k' = Spec.pendings k ∧ k'.stage ≠ .run := by
    rintro e rfl rfl
    cases hfin with
    | err => exact ⟨rfl, rfl, nofun⟩
    | errFail => exact ⟨rfl, rfl, nofun⟩
  cases hh with
  | commitMissing h => exact (notcmd (by decide) h).elim
  | commitWrite h => exact (notcmd (by decide) h).elim
  | commitUnknown h => exact (notcmd (by decide) h).elim
  | commit h => exact (notcmd (by decide) h).elim
  | basic hnc hb =>
    cases hb with
    | unexpected e he h => exact done e rfl rfl
    | disconnect h => exact (notcmd (by decide) h).elim
    | refused e h => exact done e rfl rfl
    | writeFail h hrc =>
      cases hrc with
      | failed r h1 h2 => cases h1
    | txErr e t h => exact (tx h).elim
    | begin_ t h => exact (tx h).elim
    | abort t h => exact (tx h).elim
    | store t h => exact (tx h).elim
    | subscribe h => exact (notcmd (by decide) h).elim
    | unsubscribe h => exact (notcmd (by decide) h).elim
    | send h => exact (notcmd (by decide) h).elim
    | ack h _ n' hid' hrc => rw [hbad] at hid'; cases hid'
    | nack h _ n' hid' hrc => rw [hbad] at hid'; cases hid'

/-- The first frame of a client of version 1.2. -/
def connect12 : Frame := ⟨b!"CONNECT", [(b!"accept-version", b!"1.2"), (b!"login", b!"u"), (b!"passcode", b!"p"), (b!"heart-beat", b!"0,0")], []⟩

/-- The run of `ackRun` with version 1.2. -/
def ackRun12 (mode : Bytes) : List Sys.Ev :=
  [.accept, .conn 0 (.recv connect12), .conn 0 (.frame true true), .flush 0, .proc] ++ connectRun 1 ++ frameRun 0 (queueSub b!"1" mode) ++
    frameRun 1 queueSend ++ [.push, .conn 0 (.sub true)]

/-- **C45** fails (1), the case of ack mode `client`: the property itself. -/
theorem C45_v12_false : ¬Spec.AckWorks sampleCfg b!"1.2" .client := by
  intro h
  have hrun : ∃ s k m k', Sys.init.run sampleCfg (ackRun12 b!"client" ++ [.conn 0 (.recv ⟨b!"ACK", [(b!"id", b!"1")], []⟩)]) = some s ∧ s.crashed = false ∧
      s.conns[0]? = some k ∧ k.version = b!"1.2" ∧ (∀ p ∈ Spec.pendings k, p.mode = b!"client" ∨ p.mode = b!"client-individual") ∧ 0 ∈ k.subList ∧
      (deref k.heap 0).ack = b!"client" ∧ (deref k.heap 0).frame = some m ∧ ⟨some m.frame, some m.tag⟩ ∈ k.out ∧
      (Client.createAckNackFrame b!"1.2" ⟨some m.frame.header, some ⟨(deref k.heap 0).id, .client⟩, true⟩ true).toOption =
        some (some ⟨b!"ACK", [(b!"id", b!"1")], []⟩) ∧
      k.inq = [⟨b!"ACK", [(b!"id", b!"1")], []⟩] ∧ k.step sampleCfg (.frame true true) = some k' ∧ k'.stage ≠ .run :=
    ⟨_, _, _, _, rfl, by decide +kernel, rfl, by decide +kernel, by decide +kernel, by decide +kernel, by decide +kernel, rfl, by decide +kernel,
      by decide +kernel, by decide +kernel, rfl, by decide +kernel⟩
  obtain ⟨s, k, m, k', h1, h2, h3, h4, h5, h6, h7, h8, h9, h10, h11, h12, h13⟩ := hrun
  obtain ⟨g, hg, hx⟩ := h _ s h1 h2 0 k h3 h4 h5 0 m h6 h7 h8 h9
  rw [hg] at h10
  have : g = ⟨b!"ACK", [(b!"id", b!"1")], []⟩ := by injection h10 with h10; injection h10
  subst this
  exact h13 (hx [] k' true true h11 h12).2

/-- **C45** fails (2): version 1.1 and ack mode `client-individual`: the ACK is accepted and does nothing. -/
theorem C45_individual_false : ¬Spec.AckWorks sampleCfg b!"1.1" .clientIndividual := by
  intro h
  have hrun : ∃ s k m k', Sys.init.run sampleCfg (ackRun b!"client-individual" ++ [.conn 0 (.recv ⟨b!"ACK", [(b!"subscription", b!"1"), (b!"message-id", b!"1")], []⟩)]) = some s ∧ s.crashed = false ∧
      s.conns[0]? = some k ∧ k.version = b!"1.1" ∧ (∀ p ∈ Spec.pendings k, p.mode = b!"client" ∨ p.mode = b!"client-individual") ∧ 0 ∈ k.subList ∧
      (deref k.heap 0).ack = b!"client-individual" ∧ (deref k.heap 0).frame = some m ∧ ⟨some m.frame, some m.tag⟩ ∈ k.out ∧
      (Client.createAckNackFrame b!"1.1" ⟨some m.frame.header, some ⟨(deref k.heap 0).id, .clientIndividual⟩, true⟩ true).toOption =
        some (some ⟨b!"ACK", [(b!"subscription", b!"1"), (b!"message-id", b!"1")], []⟩) ∧
      k.inq = [⟨b!"ACK", [(b!"subscription", b!"1"), (b!"message-id", b!"1")], []⟩] ∧ k.step sampleCfg (.frame true true) = some k' ∧ k'.acked = [] :=
    ⟨_, _, _, _, rfl, by decide +kernel, rfl, by decide +kernel, by decide +kernel, by decide +kernel, by decide +kernel, rfl, by decide +kernel,
      by decide +kernel, by decide +kernel, rfl, by decide +kernel⟩
  obtain ⟨s, k, m, k', h1, h2, h3, h4, h5, h6, h7, h8, h9, h10, h11, h12, h13⟩ := hrun
  obtain ⟨g, hg, hx⟩ := h _ s h1 h2 0 k h3 h4 h5 0 m h6 h7 h8 h9
  rw [hg] at h10
  have : g = ⟨b!"ACK", [(b!"subscription", b!"1"), (b!"message-id", b!"1")], []⟩ := by injection h10 with h10; injection h10
  subst this
  have := (hx [] k' true true h11 h12).1
  rw [h13] at this; cases this

-- C45_client_v11_partial, C45_written: the run of a client with ack mode `client` and its acknowledgement.
example : ∃ s k k', Sys.init.run sampleCfg (ackRun b!"client" ++ [.conn 0 (.recv ⟨b!"ACK", [(b!"subscription", b!"1"), (b!"message-id", b!"1")], []⟩)]) = some s ∧ s.crashed = false ∧
    s.conns[0]? = some k ∧ k.version = b!"1.1" ∧ Spec.pendings k = [⟨⟨1, 0⟩, some b!"1", b!"client"⟩] ∧ k.subList = [0] ∧
    k.step sampleCfg (.frame true true) = some k' ∧ k'.acked = [⟨1, 0⟩] :=
  ⟨_, _, _, rfl, by decide +kernel, rfl, by decide +kernel, by decide +kernel, by decide +kernel, rfl, by decide +kernel⟩

-- C45_v12_rejected_false: the run in the proof of C45_v12_false.
example : ∃ s k k', Sys.init.run sampleCfg (ackRun12 b!"client" ++ [.conn 0 (.recv ⟨b!"ACK", [(b!"id", b!"1")], []⟩)]) = some s ∧ s.crashed = false ∧ s.conns[0]? = some k ∧
    k.connected = true ∧ k.step sampleCfg (.frame true true) = some k' ∧ k'.acked = [] ∧ k'.stage = .discard1 :=
  ⟨_, _, _, rfl, by decide +kernel, rfl, by decide +kernel, rfl, by decide +kernel, by decide +kernel⟩

end Stomp.Server
