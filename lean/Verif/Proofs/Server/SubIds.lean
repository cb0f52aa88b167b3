import Verif.Proofs.Server.Traces
import Verif.Spec.Messages
/-! # Invariants of a connection: subscription ids; SEND requests; transactions as if unwrapped -/
namespace Stomp.Server
open Stomp

/-! ## Subscription ids -/

/-- The map of subscriptions is a map, to subscriptions with that id. -/
structure SubsOk (c : Conn) : Prop where
  nodup : c.subs.keys.Nodup
  ids : ∀ e ∈ c.subs, e.2 < c.heap.length ∧ (deref c.heap e.2).id = e.1

theorem ids_static {h h' : List Sub}
    (e : h'.map (fun s => (s.id, s.dest, s.ack, s.msgId)) = h.map (fun s => (s.id, s.dest, s.ack, s.msgId))) :
    h'.length = h.length ∧ ∀ i, (deref h' i).id = (deref h i).id ∧ (deref h' i).dest = (deref h i).dest ∧
      (deref h' i).ack = (deref h i).ack := by
  have hl : h'.length = h.length := by have := congrArg List.length e; simpa using this
  refine ⟨hl, fun i => ?_⟩
  unfold deref
  rw [List.getD_eq_getElem?_getD, List.getD_eq_getElem?_getD]
  have h1 := congrArg (fun l => l[i]?) e
  simp only [List.getElem?_map] at h1
  cases hi : h[i]? with
  | none =>
    rw [hi] at h1
    have : h'[i]? = none := by
      cases hi' : h'[i]? with
      | none => rfl
      | some s => rw [hi'] at h1; cases h1
    rw [this]; exact ⟨rfl, rfl, rfl⟩
  | some s =>
    rw [hi] at h1
    cases hi' : h'[i]? with
    | none => rw [hi'] at h1; cases h1
    | some s' =>
      rw [hi'] at h1
      simp only [Option.map_some, Option.some.injEq, Prod.mk.injEq] at h1
      exact ⟨h1.1, h1.2.1, h1.2.2.1⟩

theorem static_clearFrames (heap : List Sub) (l : List Nat) :
    (Conn.clearFrames heap l).map (fun s => (s.id, s.dest, s.ack, s.msgId)) = heap.map (fun s => (s.id, s.dest, s.ack, s.msgId)) :=
  static_foldl heap l _ (fun h i => static_putFrame h i none)

theorem SubsOk.static {c c' : Conn} (h : SubsOk c) (hs : c'.subs = c.subs)
    (he : c'.heap.map (fun s => (s.id, s.dest, s.ack, s.msgId)) = c.heap.map (fun s => (s.id, s.dest, s.ack, s.msgId))) : SubsOk c' := by
  obtain ⟨h1, h2⟩ := ids_static he
  refine ⟨by rw [hs]; exact h.nodup, fun e hm => ?_⟩
  rw [hs] at hm
  have := h.ids e hm
  exact ⟨by rw [h1]; exact this.1, by rw [(h2 e.2).1]; exact this.2⟩

theorem Applied.static {c : Conn} {f : Frame} {c' : Conn} {r : Res} (h : Applied c f c' r) : c'.subs = c.subs ∧
    c'.heap.map (fun s => (s.id, s.dest, s.ack, s.msgId)) = c.heap.map (fun s => (s.id, s.dest, s.ack, s.msgId)) := by
  cases h with
  | send => exact ⟨rfl, rfl⟩
  | ack => exact ⟨rfl, static_clearFrames _ _⟩
  | nack => exact ⟨rfl, static_clearFrames _ _⟩

theorem Committed.static {c : Conn} {fs : List Frame} {c' : Conn} {r : Res} (h : Committed c fs c' r) : c'.subs = c.subs ∧
    c'.heap.map (fun s => (s.id, s.dest, s.ack, s.msgId)) = c.heap.map (fun s => (s.id, s.dest, s.ack, s.msgId)) := by
  induction h with
  | nil => exact ⟨rfl, rfl⟩
  | cons h _ ih => exact ⟨ih.1.trans h.static.1, ih.2.trans h.static.2⟩
  | panic h => exact h.static

/-- What a handler does to the subscriptions. -/
theorem Handled.subs {c : Conn} {ok : Bool} {f : Frame} {c' : Conn} {f' : Frame} {r : Res} (h : Handled c ok f c' f' r) :
    (c'.subs = c.subs ∧
      c'.heap.map (fun s => (s.id, s.dest, s.ack, s.msgId)) = c.heap.map (fun s => (s.id, s.dest, s.ack, s.msgId))) ∨
    (r = .ok ∧ f.command = Cmd.subscribe ∧ ∃ id dest, f.header.contains Hdr.id = some id ∧ f.header.contains Hdr.destination = some dest ∧
      c.subs.get? id = none ∧ c'.subs = c.subs.set id c.heap.length ∧
      c'.heap = c.heap ++ [newSubscription dest id ((f.header.contains Hdr.ack).getD ackAuto)]) ∨
    (r = .ok ∧ f.command = Cmd.unsubscribe ∧ ∃ id i, f.header.contains Hdr.id = some id ∧ c.subs.get? id = some i ∧
      c'.subs = c.subs.del id ∧ c'.heap = c.heap) := by
  have key : ∀ {c1 : Conn} {f1 : Frame} {k : Bool}, Rcpt c ok f c1 f1 k → c1.subs = c.subs ∧ c1.heap = c.heap := by
    intro c1 f1 k hr; exact ⟨hr.frame.2.1, hr.frame.2.2.2.1⟩
  have key' : ∀ {c1 : Conn} {f1 : Frame} {k : Bool}, Rcpt c ok f c1 f1 k → c1.subs = c.subs ∧
      c1.heap.map (fun s => (s.id, s.dest, s.ack, s.msgId)) = c.heap.map (fun s => (s.id, s.dest, s.ack, s.msgId)) := by
    intro c1 f1 k hr; exact ⟨(key hr).1, by rw [(key hr).2]⟩
  cases h with
  | commitMissing => exact Or.inl ⟨rfl, rfl⟩
  | commitWrite _ _ _ hr => exact Or.inl (have := key' hr; this)
  | commitUnknown _ _ _ _ hr => exact Or.inl (have := key' hr; this)
  | commit _ _ _ _ _ hr hcm => exact Or.inl ⟨hcm.static.1.trans (key hr).1, hcm.static.2.trans (key' hr).2⟩
  | basic hnc hb =>
    cases hb with
    | unexpected => exact Or.inl ⟨rfl, rfl⟩
    | disconnect hc hr => exact Or.inl (have := key' hr; this)
    | refused => exact Or.inl ⟨rfl, rfl⟩
    | writeFail hc hr => exact Or.inl (have := key' hr; this)
    | txErr _ _ _ _ _ hr => exact Or.inl (have := key' hr; this)
    | begin_ _ _ _ _ hr => exact Or.inl (have := key' hr; this)
    | abort _ _ _ _ _ hr => exact Or.inl (have := key' hr; this)
    | store _ _ _ _ _ _ hr => exact Or.inl (have := key' hr; this)
    | subscribe hc id dest hi hd hn => exact Or.inr (Or.inl ⟨rfl, hc, id, dest, hi, hd, hn, rfl, rfl⟩)
    | unsubscribe hc id hi i hs => exact Or.inr (Or.inr ⟨rfl, hc, id, i, hi, hs, rfl, rfl⟩)
    | send _ _ hr => exact Or.inl (have := key' hr; this)
    | ack _ _ _ _ hr => exact Or.inl ⟨(key hr).1, (static_clearFrames _ _).trans (key' hr).2⟩
    | nack _ _ _ _ hr => exact Or.inl ⟨(key hr).1, (static_clearFrames _ _).trans (key' hr).2⟩

theorem subsOk_step {cfg : Config} {c : Conn} {e : Conn.Ev} {c' : Conn} (hg : Gate cfg c) (hp : SubsOk c)
    (h : Step cfg c e c') : SubsOk c' := by
  cases hfr : isFrame e with
  | false =>
    have q := quiet_step h hfr
    have hs : c'.subs = c.subs ∨ c'.subs = [] := by
      cases h with
      | frame => cases hfr
      | unsub => exact Or.inr rfl
      | _ => exact Or.inl rfl
    rcases hs with hs | hs
    · exact hp.static hs q.heap
    · exact ⟨by rw [hs]; exact List.nodup_nil, by rw [hs]; simp⟩
  | true =>
    cases h with
    | frame ok1 ok2 f q c1 _ f' r ha hq hsf hfin =>
      rcases frame_cases hg hsf hfin with ⟨_, v, cx, cy, _, ⟨_, rfl⟩ | ⟨_, rfl⟩⟩ | ⟨_, _, e, v, ⟨_, rfl⟩ | ⟨_, rfl⟩⟩ | ⟨_, hh', hf⟩
      · exact hp.static rfl rfl
      · exact hp.static rfl rfl
      · exact hp.static rfl rfl
      · exact hp.static rfl rfl
      · have h1 : SubsOk c1 := by
          rcases hh'.subs with ⟨h1, h2⟩ | ⟨_, _, id, dest, _, _, hn, h1, h2⟩ | ⟨_, _, id, i, _, _, h1, h2⟩
          · exact hp.static h1 h2
          · have hn : c.subs.get? id = none := hn
            have h1 : c1.subs = c.subs.set id c.heap.length := h1
            have h2 : c1.heap = c.heap ++ [_] := h2
            refine ⟨by rw [h1]; exact AMap.keys_nodup_set _ _ _ hp.nodup, fun e he => ?_⟩
            rw [h1] at he
            rw [h2]
            rcases AMap.mem_set he with rfl | he
            · refine ⟨by simp, ?_⟩
              unfold deref
              rw [List.getD_eq_getElem?_getD]
              simp [newSubscription]
            · have := hp.ids e he
              refine ⟨by simp; omega, ?_⟩
              rw [← this.2]
              unfold deref
              rw [List.getD_eq_getElem?_getD, List.getD_eq_getElem?_getD, List.getElem?_append_left this.1]
          · have h1 : c1.subs = c.subs.del id := h1
            have h2 : c1.heap = c.heap := h2
            refine ⟨by rw [h1]; exact AMap.keys_nodup_del _ _ hp.nodup, fun e he => ?_⟩
            rw [h1] at he
            rw [h2]
            exact hp.ids e (AMap.mem_del he)
        cases hf <;> exact h1.static rfl rfl
    | _ => cases hfr

theorem subsOk_run {cfg : Config} {me : Nat} {es : List Conn.Ev} {c : Conn} (h : (Conn.init me).run cfg es = some c) : SubsOk c :=
  (gate_induction (P := SubsOk) (fun _ _ _ hg hp hs => subsOk_step hg hp hs) es c
    ⟨List.nodup_nil, by simp [Conn.init]⟩ h).2

/-! ## SEND requests -/

/-- The messages asked to be enqueued. -/
def enqueues (l : List Req) : List Msg := l.filterMap (fun | .enqueue m => some m | _ => none)

theorem messages_append (me i : Nat) (a b : List Frame) :
    Spec.messages me i (a ++ b) = Spec.messages me i a ++ Spec.messages me (i + (Spec.messages me i a).length) b := by
  induction a generalizing i with
  | nil => simp [Spec.messages]
  | cons f a ih =>
    simp only [List.cons_append, Spec.messages]
    split
    · rw [ih]; simp; congr 1; omega
    · exact ih i

theorem enqueues_append (a b : List Req) : enqueues (a ++ b) = enqueues a ++ enqueues b := by
  unfold enqueues; rw [List.filterMap_append]

theorem enqueues_nil {l : List Req} (h : ∀ m, .enqueue m ∉ l) : enqueues l = [] := by
  unfold enqueues
  rw [List.filterMap_eq_nil_iff]
  intro r hr
  cases r with
  | enqueue m => exact absurd hr (h m)
  | _ => rfl

/-- The invariant. -/
structure Sends (c : Conn) : Prop where
  log : enqueues c.log = Spec.messages c.me 0 c.effective
  sent : c.sent = (Spec.messages c.me 0 c.effective).length

theorem Sends.keep {c c' : Conn} (h : Sends c) (hm : c'.me = c.me) (he : c'.effective = c.effective) (hs : c'.sent = c.sent)
    (hl : ∃ l, c'.log = c.log ++ l ∧ ∀ m, .enqueue m ∉ l) : Sends c' := by
  obtain ⟨l, h1, h2⟩ := hl
  exact ⟨by rw [h1, enqueues_append, enqueues_nil h2, List.append_nil, hm, he]; exact h.log, by rw [hs, hm, he]; exact h.sent⟩

theorem Sends.applied {c : Conn} {f : Frame} {c' : Conn} {r : Res} (hp : Sends c) (h : Applied c f c' r) : Sends c' := by
  have hno : ∀ g : Frame, g.command ≠ Cmd.send → Spec.messages c.me 0 (c.effective ++ [g]) = Spec.messages c.me 0 c.effective := by
    intro g hg
    rw [messages_append]
    simp only [Spec.messages]
    rw [if_neg (show ¬g.command = b!"SEND" from hg), List.append_nil]
  cases h with
  | send hc =>
    have e : Spec.messages c.me 0 (c.effective ++ [f]) =
        Spec.messages c.me 0 c.effective ++ [⟨⟨c.me, c.sent⟩, { f with command := b!"MESSAGE" }⟩] := by
      rw [messages_append]
      simp only [Spec.messages]
      rw [if_pos (show f.command = b!"SEND" from hc), hp.sent, Nat.zero_add]
    refine ⟨?_, ?_⟩
    · show enqueues (c.log ++ _) = Spec.messages c.me 0 (c.effective ++ [f])
      rw [enqueues_append, hp.log, e]; rfl
    · show c.sent + 1 = (Spec.messages c.me 0 (c.effective ++ [f])).length
      rw [e, List.length_append, ← hp.sent]; rfl
  | ack hc n hid =>
    have e := hno f (by rw [hc]; decide)
    refine ⟨?_, ?_⟩
    · show enqueues (c.log ++ _) = Spec.messages c.me 0 (c.effective ++ [f])
      rw [enqueues_append, hp.log, e, enqueues_nil (by simp), List.append_nil]
    · show c.sent = (Spec.messages c.me 0 (c.effective ++ [f])).length
      rw [e]; exact hp.sent
  | nack hc n hid =>
    have e := hno f (by rw [hc]; decide)
    refine ⟨?_, ?_⟩
    · show enqueues (c.log ++ _) = Spec.messages c.me 0 (c.effective ++ [f])
      rw [enqueues_append, hp.log, e, enqueues_nil (by simp), List.append_nil]
    · show c.sent = (Spec.messages c.me 0 (c.effective ++ [f])).length
      rw [e]; exact hp.sent

theorem Sends.committed {c : Conn} {fs : List Frame} {c' : Conn} {r : Res} (h : Committed c fs c' r) (hp : Sends c) : Sends c' := by
  induction h with
  | nil => exact hp
  | cons h _ ih => exact ih (hp.applied h)
  | panic h => exact hp.applied h

theorem Sends.handled {c : Conn} {ok : Bool} {f : Frame} {c' : Conn} {f' : Frame} {r : Res} (hp : Sends c)
    (h : Handled c ok f c' f' r) : Sends c' := by
  have key : ∀ {c1 : Conn} {f1 : Frame} {k : Bool}, Rcpt c ok f c1 f1 k → Sends c1 := by
    intro c1 f1 k hr
    refine hp.keep hr.keeps.me hr.frame.1 hr.frame.2.2.2.2.2.2.1 ⟨[], by rw [hr.frame.2.2.2.2.2.1]; simp, by simp⟩
  have k2 : ∀ {c1 : Conn} (c2 : Conn), Sends c1 → c2.me = c1.me → c2.effective = c1.effective → c2.sent = c1.sent → c2.log = c1.log → Sends c2 := by
    intro c1 c2 h a b d e
    exact h.keep a b d ⟨[], by simp [e], by simp⟩
  cases h with
  | commitMissing => exact hp
  | commitWrite _ _ _ hr => exact key hr
  | commitUnknown _ _ _ _ hr => exact key hr
  | commit _ _ _ _ _ hr hcm => exact k2 _ (Sends.committed hcm (key hr)) rfl rfl rfl rfl
  | basic hnc hb =>
    cases hb with
    | unexpected => exact hp
    | disconnect hc hr => exact key hr
    | refused => exact hp
    | writeFail hc hr => exact key hr
    | txErr _ _ _ _ _ hr => exact key hr
    | begin_ _ _ _ _ hr => exact k2 _ (key hr) rfl rfl rfl rfl
    | abort _ _ _ _ _ hr => exact k2 _ (key hr) rfl rfl rfl rfl
    | store _ _ _ _ _ _ hr => exact k2 _ (key hr) rfl rfl rfl rfl
    | subscribe hc => exact hp.keep rfl rfl rfl ⟨_, rfl, by simp⟩
    | unsubscribe hc => exact hp.keep rfl rfl rfl ⟨_, rfl, by simp⟩
    | send hc _ hr => exact (key hr).applied (Applied.send (by rw [hr.command]; exact hc))
    | ack hc _ n hid hr =>
      refine (key hr).applied (Applied.ack (by rw [hr.command]; exact hc) n ?_)
      rw [hr.frame_eq]; rw [← hid]; exact ackId_strip (by decide) (by decide)
    | nack hc _ n hid hr =>
      refine (key hr).applied (Applied.nack (by rw [hr.command]; exact hc) n ?_)
      rw [hr.frame_eq]; rw [← hid]; exact ackId_strip (by decide) (by decide)

theorem sends_run {cfg : Config} {me : Nat} {es : List Conn.Ev} {c : Conn} (h : (Conn.init me).run cfg es = some c) : Sends c := by
  refine (gate_induction (P := Sends) (fun c e c' hg hp hs => ?_) es c ⟨rfl, rfl⟩ h).2
  cases hfr : isFrame e with
  | false =>
    have q := quiet_step hs hfr
    exact hp.keep q.me q.effective q.sent q.log
  | true =>
    cases hs with
    | frame ok1 ok2 f q c1 _ f' r ha hq hsf hfin =>
      have z : ∀ (c2 : Conn) {c1 : Conn}, Sends c1 → c2.me = c1.me → c2.effective = c1.effective → c2.sent = c1.sent → c2.log = c1.log → Sends c2 := by
        intro c2 c1 h a b d e
        exact h.keep a b d ⟨[], by simp [e], by simp⟩
      rcases frame_cases hg hsf hfin with ⟨_, v, cx, cy, _, ⟨_, rfl⟩ | ⟨_, rfl⟩⟩ | ⟨_, _, e, v, ⟨_, rfl⟩ | ⟨_, rfl⟩⟩ | ⟨_, hh', hf⟩
      · exact hp.keep rfl rfl rfl ⟨_, rfl, by simp⟩
      · exact hp.keep rfl rfl rfl ⟨_, rfl, by simp⟩
      · exact z _ hp rfl rfl rfl rfl
      · exact z _ hp rfl rfl rfl rfl
      · have h1 : Sends c1 := Sends.handled (z { c with inq := q, hist := c.hist ++ [f] } hp rfl rfl rfl rfl) hh'
        cases hf with
        | ok => exact h1
        | panic => exact z _ h1 rfl rfl rfl rfl
        | err => exact z _ h1 rfl rfl rfl rfl
        | errFail => exact z _ h1 rfl rfl rfl rfl
    | _ => cases hfr

/-! ## A committed transaction is the same as its frames without the transaction -/

/-- Forget the processed frames and the open transactions. -/
def erase (c : Conn) : Conn := { c with hist := [], tx := [] }

theorem basic_erase {f : Frame} (hs : Stored f) (c : Conn) (ok : Bool) :
    (erase c).connectedBasic ok f = (erase (c.connectedBasic ok f).1, (c.connectedBasic ok f).2) := by
  have h1 := hs.noReceipt
  have h2 := hs.noTx
  rcases hs.cmd with h | h | h
  · simp only [Conn.connectedBasic, h, show (Cmd.send = Cmd.connect ∨ Cmd.send = Cmd.stomp) = False from by simp; decide,
      show (Cmd.send = Cmd.disconnect) = False from by simp; decide, show (Cmd.send = Cmd.begin_) = False from by simp; decide,
      show (Cmd.send = Cmd.abort) = False from by simp; decide, if_false, if_true, Conn.handleSend, Conn.sendReceipt, h1, h2]
    rfl
  · simp only [Conn.connectedBasic, h, show (Cmd.ack = Cmd.connect ∨ Cmd.ack = Cmd.stomp) = False from by simp; decide,
      show (Cmd.ack = Cmd.disconnect) = False from by simp; decide, show (Cmd.ack = Cmd.begin_) = False from by simp; decide,
      show (Cmd.ack = Cmd.abort) = False from by simp; decide, show (Cmd.ack = Cmd.send) = False from by simp; decide,
      show (Cmd.ack = Cmd.subscribe) = False from by simp; decide, show (Cmd.ack = Cmd.unsubscribe) = False from by simp; decide,
      if_false, if_true, Conn.handleAck, Conn.sendReceipt, h1, h2]
    cases Conn.ackId f <;> rfl
  · simp only [Conn.connectedBasic, h, show (Cmd.nack = Cmd.connect ∨ Cmd.nack = Cmd.stomp) = False from by simp; decide,
      show (Cmd.nack = Cmd.disconnect) = False from by simp; decide, show (Cmd.nack = Cmd.begin_) = False from by simp; decide,
      show (Cmd.nack = Cmd.abort) = False from by simp; decide, show (Cmd.nack = Cmd.send) = False from by simp; decide,
      show (Cmd.nack = Cmd.subscribe) = False from by simp; decide, show (Cmd.nack = Cmd.unsubscribe) = False from by simp; decide,
      show (Cmd.nack = Cmd.ack) = False from by simp; decide,
      if_false, if_true, Conn.handleNack, Conn.sendReceipt, h1, h2]
    cases Conn.ackId f <;> rfl

theorem commit_erase (cfg : Config) (ok1 ok2 : Bool) (l : List Frame) (hs : ∀ g ∈ l, Stored g) (c c2 : Conn) (he : erase c2 = erase c)
    (hc : c.connected = true) (hr : (c.commitLoop ok1 l).2 = .ok) :
    erase (l.foldl (fun c g => c.processFrame cfg ok1 ok2 g) c2) = erase (c.commitLoop ok1 l).1 := by
  induction l generalizing c c2 with
  | nil => exact he
  | cons g l ih =>
    have hg := hs g (by simp)
    rw [List.foldl_cons]
    have ha := applied_of_stored (c := c) (ok := ok1) hg
    unfold Conn.commitLoop at hr ⊢
    have hc2 : c2.connected = true := by
      have : (erase c2).connected = (erase c).connected := by rw [he]
      exact this.trans hc
    have hpf : erase (c2.processFrame cfg ok1 ok2 g) = erase (c.connectedBasic ok1 g).1 ∨ (c.connectedBasic ok1 g).2.2 ≠ .ok := by
      by_cases hok : (c.connectedBasic ok1 g).2.2 = .ok
      · left
        unfold Conn.processFrame Conn.stateFunc
        rw [if_neg (by simp [hc2])]
        rw [if_neg (by rcases hg.cmd with h | h | h <;> rw [h] <;> decide)]
        have e1 := basic_erase hg c ok1
        have e2 := basic_erase hg ({ c2 with hist := c2.hist ++ [g] } : Conn) ok1
        have e3 : erase ({ c2 with hist := c2.hist ++ [g] } : Conn) = erase c := by rw [← he]; rfl
        rw [e3, e1] at e2
        generalize ({ c2 with hist := c2.hist ++ [g] } : Conn).connectedBasic ok1 g = x at *
        generalize c.connectedBasic ok1 g = y at *
        obtain ⟨x1, x2, x3⟩ := x
        obtain ⟨y1, y2, y3⟩ := y
        dsimp only at *
        injection e2 with e2 e4
        injection e4 with e4 e5
        subst hok
        rw [← e5]
        exact e2.symm
      · exact Or.inr hok
    generalize hx : c.connectedBasic ok1 g = x at *
    obtain ⟨x1, x2, x3⟩ := x
    dsimp only at *
    rcases ha.res with rfl | rfl
    · dsimp only at hr ⊢
      refine ih (fun g hg => hs g (by simp [hg])) x1 _ ?_ ?_ hr
      · exact hpf.resolve_right (by simp)
      · exact ha.keeps.connected.trans hc
    · cases hr

end Stomp.Server
