import Verif.Proofs.Server.SubReqs
import Verif.Proofs.Server.Places
/-! # Where the requests to put a subscription back into its queue come from -/
namespace Stomp.Server
open Stomp

/-- Why a connection asks for a subscription it has already: a message has been written in the auto mode, or one has been acknowledged or rejected. -/
def Again (k k' : Conn) (i : Nat) : Prop :=
  k.stage = .run ∧ ((i ∈ k.subCh ∧ ∃ j, k.subs.get? (deref k.heap i).id = some j) ∨
    (i ∈ k.subList ∧ ∃ g ∈ k'.effective, g.command = Cmd.ack ∨ g.command = Cmd.nack))

/-- What a step of a connection's own goroutines does to its map of subscriptions, with the requests it makes about subscriptions and why. -/
inductive AskStep (k k' : Conn) : Prop
  | quiet (new : List Req) (hp : pending k'.outbox = pending k.outbox ++ new) (hs : k'.subs = k.subs) (hl : k'.heap.length = k.heap.length)
      (hr : ∀ r, .subscribe r ∈ new → Again k k' r.idx) (hu : ∀ r, .unsubscribe r ∉ new)
  | join (x : Sub) (hst : k.stage = .run) (hn : k.subs.get? x.id = none) (hh : k'.heap = k.heap ++ [x]) (hs : k'.subs = k.subs.set x.id k.heap.length)
      (hp : pending k'.outbox = pending k.outbox ++ [.subscribe ⟨k.me, k.heap.length⟩])
  | leave (id : Bytes) (i : Nat) (hst : k.stage = .run) (hg : k.subs.get? id = some i) (hh : k'.heap = k.heap) (hs : k'.subs = k.subs.del id)
      (hp : pending k'.outbox = pending k.outbox ++ [.unsubscribe ⟨k.me, i⟩]) (hf : ∃ f ∈ k'.hist, f.command = Cmd.unsubscribe)
  | clear (order : List Nat) (ho : order.Perm (k.subs.map (·.2))) (hh : k'.heap = k.heap) (hs : k'.subs = []) (hst : k'.stage = .acklist)
      (hp : pending k'.outbox = pending k.outbox ++ order.map (fun i => .unsubscribe ⟨k.me, i⟩))

theorem Applied.asked {c : Conn} {f : Frame} {c' : Conn} {r : Res} (h : Applied c f c' r) :
    ∃ new, pending c'.outbox = pending c.outbox ++ new ∧
      (∀ r, .subscribe r ∈ new → r.idx ∈ c.subList ∧ ∃ g ∈ c'.effective, g.command = Cmd.ack ∨ g.command = Cmd.nack) ∧ ∀ r, .unsubscribe r ∉ new := by
  obtain ⟨new, h1, h2, h3⟩ := h.subReqs
  refine ⟨new, h1, fun r hr => ⟨h2 r hr, f, by rw [h.effective.1]; simp, ?_⟩, h3⟩
  cases h with
  | ack hc => exact Or.inl hc
  | nack hc => exact Or.inr hc
  | send hc =>
    have : pending (sendApply c f).outbox = pending c.outbox ++ [.enqueue ⟨⟨c.me, c.sent⟩, { f with command := Cmd.message }⟩] := by
      unfold sendApply; exact (pending_append _ _).trans (by rw [pending_map])
    rw [this] at h1
    have := List.append_cancel_left h1
    rw [← this] at hr
    simp at hr

theorem Committed.asked {c : Conn} {fs : List Frame} {c' : Conn} {r : Res} (h : Committed c fs c' r) :
    (∀ g ∈ c.effective, g ∈ c'.effective) ∧ ∃ new, pending c'.outbox = pending c.outbox ++ new ∧
      (∀ r, .subscribe r ∈ new → r.idx ∈ c.subList ∧ ∃ g ∈ c'.effective, g.command = Cmd.ack ∨ g.command = Cmd.nack) ∧ ∀ r, .unsubscribe r ∉ new := by
  induction h with
  | nil => exact ⟨fun _ h => h, [], by simp, by simp, by simp⟩
  | cons h _ ih =>
    obtain ⟨a, a1, a2, a3⟩ := h.asked
    obtain ⟨e, b, b1, b2, b3⟩ := ih
    refine ⟨fun g hg => e g (by rw [h.effective.1]; exact List.mem_append_left _ hg), a ++ b, by rw [b1, a1, List.append_assoc], ?_, ?_⟩
    · intro r hr
      rcases List.mem_append.1 hr with hr | hr
      · obtain ⟨h1, g, hg, h2⟩ := a2 r hr
        exact ⟨h1, g, e g hg, h2⟩
      · exact ⟨(h.fewer _ (b2 r hr).1).1, (b2 r hr).2⟩
    · intro r hr
      rcases List.mem_append.1 hr with hr | hr
      · exact a3 r hr
      · exact b3 r hr
  | panic h => exact ⟨fun g hg => by rw [h.effective.1]; exact List.mem_append_left _ hg, h.asked⟩

theorem static_len {h h' : List Sub}
    (e : h'.map (fun s => (s.id, s.dest, s.ack, s.msgId)) = h.map (fun s => (s.id, s.dest, s.ack, s.msgId))) : h'.length = h.length := (ids_static e).1

theorem Handled.askStep {c : Conn} {ok : Bool} {f : Frame} {c' : Conn} {f' : Frame} {r : Res} (h : Handled c ok f c' f' r) (hst : c.stage = .run)
    (hf : f ∈ c.hist) : AskStep c c' := by
  have same : ∀ {x : Conn}, x.outbox = c.outbox → x.subs = c.subs → x.heap = c.heap → AskStep c x := by
    intro x h1 h2 h3
    exact .quiet [] (by rw [h1, List.append_nil]) h2 (by rw [h3]) (by simp) (by simp)
  have key : ∀ {c1 : Conn} {f1 : Frame} {k : Bool}, Rcpt c ok f c1 f1 k → c1.outbox = c.outbox ∧ c1.subs = c.subs ∧ c1.subList = c.subList ∧ c1.heap = c.heap := by
    intro c1 f1 k hr; cases hr <;> exact ⟨rfl, rfl, rfl, rfl⟩
  have quick : ∀ {c1 : Conn} {f1 : Frame} {k : Bool}, Rcpt c ok f c1 f1 k → ∀ {x : Conn}, x.outbox = c1.outbox → x.subs = c1.subs → x.heap = c1.heap → AskStep c x := by
    intro c1 f1 k hr x h1 h2 h3
    obtain ⟨e1, e2, _, e3⟩ := key hr
    exact same (h1.trans e1) (h2.trans e2) (h3.trans e3)
  have some_ : ∀ {c1 x : Conn} {f1 : Frame} {k : Bool}, Rcpt c ok f c1 f1 k → x.subs = c1.subs → x.heap.length = c1.heap.length →
      (∃ new, pending x.outbox = pending c1.outbox ++ new ∧
        (∀ r, .subscribe r ∈ new → r.idx ∈ c1.subList ∧ ∃ g ∈ x.effective, g.command = Cmd.ack ∨ g.command = Cmd.nack) ∧ ∀ r, .unsubscribe r ∉ new) → AskStep c x := by
    rintro c1 x f1 k hr hs hl ⟨new, h1, h2, h3⟩
    obtain ⟨e1, e2, e3, e4⟩ := key hr
    exact .quiet new (by rw [h1, e1]) (hs.trans e2) (by rw [hl, e4]) (fun r hr => ⟨hst, Or.inr (by rw [← e3]; exact h2 r hr)⟩) h3
  cases h with
  | commitMissing => exact same rfl rfl rfl
  | commitWrite _ _ _ hr => exact quick hr rfl rfl rfl
  | commitUnknown _ _ _ _ hr => exact quick hr rfl rfl rfl
  | commit _ _ _ _ _ hr hcm => exact some_ hr hcm.static.1 (static_len hcm.static.2) hcm.asked.2
  | basic hnc hb =>
    cases hb with
    | unexpected => exact same rfl rfl rfl
    | disconnect hc hr => exact quick hr rfl rfl rfl
    | refused => exact same rfl rfl rfl
    | writeFail hc hr => exact quick hr rfl rfl rfl
    | txErr _ _ _ _ _ hr => exact quick hr rfl rfl rfl
    | begin_ _ _ _ _ hr => exact quick hr rfl rfl rfl
    | abort _ _ _ _ _ hr => exact quick hr rfl rfl rfl
    | store _ _ _ _ _ _ hr => exact quick hr rfl rfl rfl
    | subscribe hc id dest hi hd hn =>
      exact .join (newSubscription dest id ((f.header.contains Hdr.ack).getD ackAuto)) hst hn rfl rfl ((pending_append _ _).trans (by rw [pending_map]))
    | unsubscribe hc id hi i hg => exact .leave id i hst hg rfl rfl ((pending_append _ _).trans (by rw [pending_map])) ⟨f, hf, hc⟩
    | send hc _ hr => exact some_ hr rfl rfl (Applied.send (by rw [hr.command]; exact hc)).asked
    | ack hc _ n hid hr =>
      have ha : ∀ x, Applied x _ _ _ := fun x => Applied.ack (c := x) (by rw [hr.command]; exact hc) n (by rw [hr.frame_eq, ← hid]; exact ackId_strip (by decide) (by decide))
      exact some_ hr (ha _).static.1 (static_len (ha _).static.2) (ha _).asked
    | nack hc _ n hid hr =>
      have ha : ∀ x, Applied x _ _ _ := fun x => Applied.nack (c := x) (by rw [hr.command]; exact hc) n (by rw [hr.frame_eq, ← hid]; exact ackId_strip (by decide) (by decide))
      exact some_ hr (ha _).static.1 (static_len (ha _).static.2) (ha _).asked

theorem askStep {cfg : Config} {c : Conn} {e : Conn.Ev} {c' : Conn} (hg : Gate cfg c) (hi : Sys.internal e = true) (h : Step cfg c e c') : AskStep c c' := by
  have same : ∀ {x : Conn}, pending x.outbox = pending c.outbox → x.subs = c.subs → x.heap.length = c.heap.length → AskStep c x := by
    intro x h1 h2 h3
    exact .quiet [] (by rw [h1, List.append_nil]) h2 h3 (by simp) (by simp)
  have p : ∀ (o : List Out), pending (o ++ [.panic]) = pending o := by
    intro o; rw [pending_append]; simp [pending]
  have put : ∀ {x : Conn} (l : List Req), x.outbox = c.outbox ++ l.map .req → x.subs = c.subs → x.heap.length = c.heap.length → (∀ r, .subscribe r ∉ l) →
      (∀ r, .unsubscribe r ∉ l) → AskStep c x := by
    intro x l h1 h2 h5 h3 h4
    exact .quiet l (by rw [h1, pending_append, pending_map]) h2 h5 (fun r hr => absurd hr (h3 r)) h4
  have fr : ∀ (i : Nat) (m : Option Msg) (h : List Sub), (putFrame h i m).length = h.length := fun i m h => List.length_modify ..
  have il : ∀ (i : Nat) (b : Bool) (h : List Sub), (putInList h i b).length = h.length := fun i b h => List.length_modify ..
  cases h with
  | recv => exact same rfl rfl rfl
  | readErr => exact same rfl rfl rfl
  | frame ok1 ok2 f q c1 _ f' r ha hq hsf hfin =>
    have hst := (select_empty ha).1
    rcases frame_cases hg hsf hfin with ⟨_, v, cx, cy, _, ⟨_, rfl⟩ | ⟨_, rfl⟩⟩ | ⟨_, _, e, v, ⟨_, rfl⟩ | ⟨_, rfl⟩⟩ | ⟨_, hh', hf⟩
    · exact put [.connected c.me] rfl rfl rfl (by simp) (by simp)
    · exact put [.connected c.me] rfl rfl rfl (by simp) (by simp)
    · exact same rfl rfl rfl
    · exact same rfl rfl rfl
    · have h1 := hh'.askStep hst (by simp)
      have lift : ∀ x : Conn, pending x.outbox = pending c1.outbox → x.subs = c1.subs → x.heap = c1.heap → x.effective = c1.effective → x.hist = c1.hist → c1.stage = .run → AskStep c x := by
        intro x e1 e2 e3 e4 e5 e6
        cases h1 with
        | quiet new hp hs hl hr hu => exact .quiet new (e1.trans hp) (e2.trans hs) (by rw [e3]; exact hl) (fun r h => by unfold Again at hr ⊢; rw [e4]; exact hr r h) hu
        | join x hst hn hh hs hp => exact .join x hst hn (e3.trans hh) (e2.trans hs) (e1.trans hp)
        | leave id i hst hg hh hs hp hf => exact .leave id i hst hg (e3.trans hh) (e2.trans hs) (e1.trans hp) (by rw [e5]; exact hf)
        | clear o ho hh hs hst => rw [e6] at hst; cases hst
      have hs1 : c1.stage = .run := hh'.keeps.stage.trans hst
      cases hf with
      | ok => exact lift _ rfl rfl rfl rfl rfl hs1
      | panic => exact lift _ (p _) rfl rfl rfl rfl hs1
      | err => exact lift _ rfl rfl rfl rfl rfl hs1
      | errFail => exact lift _ rfl rfl rfl rfl rfl hs1
  | readClosed => exact same rfl rfl rfl
  | wrOk => exact same rfl rfl rfl
  | wrErr => exact same rfl rfl rfl
  | wrFail => exact same rfl rfl rfl
  | subGone ok i l ha hl => exact put [.requeue (deref c.heap i).frame] rfl rfl rfl (by simp) (by simp)
  | subNil => exact same (p _) rfl rfl
  | subFail => exact same rfl rfl (fr _ _ _)
  | subAuto i l j m ha hl hg =>
    refine .quiet [.subscribe ⟨c.me, i⟩] ((pending_append _ _).trans (by rw [pending_map])) rfl ((fr _ _ _).trans (fr _ _ _)) ?_ (by simp)
    intro r hr
    simp at hr; subst hr
    exact ⟨(select_empty ha).1, Or.inl ⟨by rw [hl]; exact List.mem_cons_self, j, hg⟩⟩
  | subPanic => exact same (p _) rfl (fr _ _ _)
  | subAdd => exact same rfl rfl ((il _ _ _).trans (fr _ _ _))
  | timerOk => exact same rfl rfl rfl
  | timerFail => exact same rfl rfl rfl
  | discard => exact same rfl rfl rfl
  | discardEnd => exact same rfl rfl rfl
  | acklist =>
    refine put (c.subList.map (fun i => .requeue (deref c.heap i).frame)) rfl rfl ?_ (by simp) (by simp)
    show (c.subList.foldl (fun h i => putInList h i false) c.heap).length = c.heap.length
    generalize c.subList = l
    generalize c.heap = h0
    induction l generalizing h0 with
    | nil => rfl
    | cons i l ih => rw [List.foldl_cons, ih, il]
  | drain i l => exact put [.requeue (deref c.heap i).frame] rfl rfl rfl (by simp) (by simp)
  | drainEnd => exact same rfl rfl rfl
  | announce => exact put [.disconnected c.me] rfl rfl rfl (by simp) (by simp)
  | unsub order ho hs hp => exact .clear order hp rfl rfl rfl ((pending_append _ _).trans (by rw [pending_map]))
  | flushed => cases hi
  | setFrame => cases hi
  | setInList => cases hi
  | pushSub => cases hi
  | pushTopic => cases hi

end Stomp.Server
