import Verif.Proofs.Server.Pending
/-! # The requests to subscribe and unsubscribe, and the map of subscriptions -/
namespace Stomp.Server
open Stomp

/-- What a step of a connection's own goroutines does to its map of subscriptions, together with the requests it makes about subscriptions. -/
inductive SubStep (k k' : Conn) : Prop
  | quiet (new : List Req) (hp : pending k'.outbox = pending k.outbox ++ new) (hs : k'.subs = k.subs)
      (hr : ∀ r, .subscribe r ∈ new → r.idx ∈ k.subCh ∨ r.idx ∈ k.subList) (hu : ∀ r, .unsubscribe r ∉ new)
  | join (x : Sub) (hn : k.subs.get? x.id = none) (hh : k'.heap = k.heap ++ [x]) (hs : k'.subs = k.subs.set x.id k.heap.length)
      (hp : pending k'.outbox = pending k.outbox ++ [.subscribe ⟨k.me, k.heap.length⟩])
  | leave (id : Bytes) (i : Nat) (hg : k.subs.get? id = some i) (hh : k'.heap = k.heap) (hs : k'.subs = k.subs.del id)
      (hp : pending k'.outbox = pending k.outbox ++ [.unsubscribe ⟨k.me, i⟩])
  | clear (order : List Nat) (ho : order.Perm (k.subs.map (·.2))) (hh : k'.heap = k.heap) (hs : k'.subs = [])
      (hp : pending k'.outbox = pending k.outbox ++ order.map (fun i => .unsubscribe ⟨k.me, i⟩))

theorem ackLoop_acked (heap : List Sub) (n : Nat) (l : List Nat) : ∀ i ∈ (ackLoop heap n l).2.1, i ∈ l := (ackLoop_mem heap n l).2

theorem nackLoop_nacked (heap : List Sub) (n : Nat) (l : List Nat) : ∀ i ∈ (nackLoop heap n l).2, i ∈ l := by
  induction l with
  | nil => simp [nackLoop]
  | cons j l ih =>
    intro i hi
    unfold nackLoop at hi
    dsimp only at hi
    split at hi
    · rcases List.mem_cons.1 hi with rfl | hi
      · exact List.mem_cons_self
      · exact List.mem_cons_of_mem _ (ih i hi)
    · exact List.mem_cons_of_mem _ (ih i hi)

theorem Applied.subReqs {c : Conn} {f : Frame} {c' : Conn} {r : Res} (h : Applied c f c' r) :
    ∃ new, pending c'.outbox = pending c.outbox ++ new ∧ (∀ r, .subscribe r ∈ new → r.idx ∈ c.subList) ∧ ∀ r, .unsubscribe r ∉ new := by
  cases h with
  | send =>
    refine ⟨_, by unfold sendApply; exact (pending_append _ _).trans (by rw [pending_map]), ?_, ?_⟩ <;> simp
  | ack hc n hid =>
    refine ⟨_, by unfold Conn.applyAck; exact (pending_append _ _).trans (by rw [pending_map]), ?_, ?_⟩
    · intro r hr
      obtain ⟨i, hi, he⟩ := List.mem_map.1 hr
      injection he with he; subst he
      exact ackLoop_acked _ _ _ i hi
    · intro r hr
      obtain ⟨i, hi, he⟩ := List.mem_map.1 hr
      cases he
  | nack hc n hid =>
    refine ⟨_, by unfold Conn.applyNack; exact (pending_append _ _).trans (by rw [pending_map]), ?_, ?_⟩
    · intro r hr
      obtain ⟨i, hi, he⟩ := List.mem_flatMap.1 hr
      simp at he
      subst he
      exact nackLoop_nacked _ _ _ i hi
    · intro r hr
      obtain ⟨i, hi, he⟩ := List.mem_flatMap.1 hr
      simp at he

theorem Committed.subReqs {c : Conn} {fs : List Frame} {c' : Conn} {r : Res} (h : Committed c fs c' r) :
    ∃ new, pending c'.outbox = pending c.outbox ++ new ∧ (∀ r, .subscribe r ∈ new → r.idx ∈ c.subList) ∧ ∀ r, .unsubscribe r ∉ new := by
  induction h with
  | nil => exact ⟨[], by simp, by simp, by simp⟩
  | cons h _ ih =>
    obtain ⟨a, a1, a2, a3⟩ := h.subReqs
    obtain ⟨b, b1, b2, b3⟩ := ih
    refine ⟨a ++ b, by rw [b1, a1, List.append_assoc], ?_, ?_⟩
    · intro r hr
      rcases List.mem_append.1 hr with hr | hr
      · exact a2 r hr
      · exact (h.fewer _ (b2 r hr)).1
    · intro r hr
      rcases List.mem_append.1 hr with hr | hr
      · exact a3 r hr
      · exact b3 r hr
  | panic h => exact h.subReqs

theorem Handled.subStep {c : Conn} {ok : Bool} {f : Frame} {c' : Conn} {f' : Frame} {r : Res} (h : Handled c ok f c' f' r) : SubStep c c' := by
  have same : ∀ {x : Conn}, x.outbox = c.outbox → x.subs = c.subs → SubStep c x := by
    intro x h1 h2
    exact .quiet [] (by rw [h1, List.append_nil]) h2 (by simp) (by simp)
  have key : ∀ {c1 : Conn} {f1 : Frame} {k : Bool}, Rcpt c ok f c1 f1 k → c1.outbox = c.outbox ∧ c1.subs = c.subs ∧ c1.subList = c.subList := by
    intro c1 f1 k hr; cases hr <;> exact ⟨rfl, rfl, rfl⟩
  have some_ : ∀ {c1 x : Conn} {f1 : Frame} {k : Bool}, Rcpt c ok f c1 f1 k → x.subs = c1.subs →
      (∃ new, pending x.outbox = pending c1.outbox ++ new ∧ (∀ r, .subscribe r ∈ new → r.idx ∈ c1.subList) ∧ ∀ r, .unsubscribe r ∉ new) → SubStep c x := by
    rintro c1 x f1 k hr hs ⟨new, h1, h2, h3⟩
    obtain ⟨e1, e2, e3⟩ := key hr
    exact .quiet new (by rw [h1, e1]) (hs.trans e2) (fun r hr => Or.inr (by rw [← e3]; exact h2 r hr)) h3
  cases h with
  | commitMissing => exact same rfl rfl
  | commitWrite _ _ _ hr => exact same (key hr).1 (key hr).2.1
  | commitUnknown _ _ _ _ hr => exact same (key hr).1 (key hr).2.1
  | commit _ _ _ _ _ hr hcm => exact some_ hr hcm.static.1 hcm.subReqs
  | basic hnc hb =>
    cases hb with
    | unexpected => exact same rfl rfl
    | disconnect hc hr => exact same (key hr).1 (key hr).2.1
    | refused => exact same rfl rfl
    | writeFail hc hr => exact same (key hr).1 (key hr).2.1
    | txErr _ _ _ _ _ hr => exact same (key hr).1 (key hr).2.1
    | begin_ _ _ _ _ hr => exact same (key hr).1 (key hr).2.1
    | abort _ _ _ _ _ hr => exact same (key hr).1 (key hr).2.1
    | store _ _ _ _ _ _ hr => exact same (key hr).1 (key hr).2.1
    | subscribe hc id dest hi hd hn =>
      exact .join (newSubscription dest id ((f.header.contains Hdr.ack).getD ackAuto)) hn rfl rfl ((pending_append _ _).trans (by rw [pending_map]))
    | unsubscribe hc id hi i hg => exact .leave id i hg rfl rfl ((pending_append _ _).trans (by rw [pending_map]))
    | send hc _ hr => exact some_ hr rfl (Applied.send (by rw [hr.command]; exact hc)).subReqs
    | ack hc _ n hid hr =>
      refine some_ hr ?_ (Applied.subReqs (Applied.ack (by rw [hr.command]; exact hc) n (by rw [hr.frame_eq, ← hid]; exact ackId_strip (by decide) (by decide))))
      rfl
    | nack hc _ n hid hr =>
      refine some_ hr ?_ (Applied.subReqs (Applied.nack (by rw [hr.command]; exact hc) n (by rw [hr.frame_eq, ← hid]; exact ackId_strip (by decide) (by decide))))
      rfl

theorem subStep {cfg : Config} {c : Conn} {e : Conn.Ev} {c' : Conn} (hg : Gate cfg c) (hi : Sys.internal e = true) (h : Step cfg c e c') : SubStep c c' := by
  have same : ∀ {x : Conn}, pending x.outbox = pending c.outbox → x.subs = c.subs → SubStep c x := by
    intro x h1 h2
    exact .quiet [] (by rw [h1, List.append_nil]) h2 (by simp) (by simp)
  have p : ∀ (o : List Out), pending (o ++ [.panic]) = pending o := by
    intro o; rw [pending_append]; simp [pending]
  have put : ∀ {x : Conn} (l : List Req), x.outbox = c.outbox ++ l.map .req → x.subs = c.subs → (∀ r, .subscribe r ∈ l → r.idx ∈ c.subCh ∨ r.idx ∈ c.subList) →
      (∀ r, .unsubscribe r ∉ l) → SubStep c x := by
    intro x l h1 h2 h3 h4
    exact .quiet l (by rw [h1, pending_append, pending_map]) h2 h3 h4
  cases h with
  | recv => exact same rfl rfl
  | readErr => exact same rfl rfl
  | frame ok1 ok2 f q c1 _ f' r ha hq hsf hfin =>
    rcases frame_cases hg hsf hfin with ⟨_, v, cx, cy, _, ⟨_, rfl⟩ | ⟨_, rfl⟩⟩ | ⟨_, _, e, v, ⟨_, rfl⟩ | ⟨_, rfl⟩⟩ | ⟨_, hh', hf⟩
    · exact put [.connected c.me] rfl rfl (by simp) (by simp)
    · exact put [.connected c.me] rfl rfl (by simp) (by simp)
    · exact same rfl rfl
    · exact same rfl rfl
    · have h1 := hh'.subStep
      have lift : ∀ x : Conn, pending x.outbox = pending c1.outbox → x.subs = c1.subs → x.heap = c1.heap → SubStep c x := by
        intro x e1 e2 e3
        cases h1 with
        | quiet new hp hs hr hu => exact .quiet new (e1.trans hp) (e2.trans hs) hr hu
        | join x hn hh hs hp => exact .join x hn (e3.trans hh) (e2.trans hs) (e1.trans hp)
        | leave id i hg hh hs hp => exact .leave id i hg (e3.trans hh) (e2.trans hs) (e1.trans hp)
        | clear o ho hh hs hp => exact .clear o ho (e3.trans hh) (e2.trans hs) (e1.trans hp)
      cases hf with
      | ok => exact lift _ rfl rfl rfl
      | panic => exact lift _ (p _) rfl rfl
      | err => exact lift _ rfl rfl rfl
      | errFail => exact lift _ rfl rfl rfl
  | readClosed => exact same rfl rfl
  | wrOk => exact same rfl rfl
  | wrErr => exact same rfl rfl
  | wrFail => exact same rfl rfl
  | subGone ok i l ha hl => exact put [.requeue (deref c.heap i).frame] rfl rfl (by simp) (by simp)
  | subNil => exact same (p _) rfl
  | subFail => exact same rfl rfl
  | subAuto i l j m ha hl =>
    refine put [.subscribe ⟨c.me, i⟩] rfl rfl ?_ (by simp)
    intro r hr
    simp at hr; subst hr
    exact Or.inl (by rw [hl]; exact List.mem_cons_self)
  | subPanic => exact same (p _) rfl
  | subAdd => exact same rfl rfl
  | timerOk => exact same rfl rfl
  | timerFail => exact same rfl rfl
  | discard => exact same rfl rfl
  | discardEnd => exact same rfl rfl
  | acklist => exact put (c.subList.map (fun i => .requeue (deref c.heap i).frame)) rfl rfl (by simp) (by simp)
  | drain i l => exact put [.requeue (deref c.heap i).frame] rfl rfl (by simp) (by simp)
  | drainEnd => exact same rfl rfl
  | announce => exact put [.disconnected c.me] rfl rfl (by simp) (by simp)
  | unsub order ho hs hp => exact .clear order hp rfl rfl ((pending_append _ _).trans (by rw [pending_map]))
  | flushed => cases hi
  | setFrame => cases hi
  | setInList => cases hi
  | pushSub => cases hi
  | pushTopic => cases hi

end Stomp.Server
