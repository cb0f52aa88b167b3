import Verif.Proofs.Server.SessionInv
/-! # What a server connection writes, and what it asks of the processor -/
namespace Stomp.Server
open Stomp

theorem Applied.out {c : Conn} {f : Frame} {c' : Conn} {r : Res} (h : Applied c f c' r) :
    c'.out = c.out ∧ c'.wfail = c.wfail := by
  cases h <;> exact ⟨rfl, rfl⟩

/-- What the handlers write: nothing, or the RECEIPT. -/
theorem Handled.out {c : Conn} {ok : Bool} {f : Frame} {c' : Conn} {f' : Frame} {r : Res} (h : Handled c ok f c' f' r) :
    (c'.out = c.out ∧ c'.wfail = c.wfail ∧ f' = f ∧
      (f.header.contains Hdr.receipt = none ∨ (∃ e, r = .err e) ∨ ((f.command = Cmd.subscribe ∨ f.command = Cmd.unsubscribe) ∧ r = .ok))) ∨
    (∃ v, f.header.contains Hdr.receipt = some v ∧ c'.out = c.out ++ [⟨some (receiptFrame v), none⟩] ∧ c'.wfail = c.wfail ∧
      f' = strip Hdr.receipt f) ∨
    (c'.out = c.out ∧ c'.wfail = true) := by
  have key : ∀ {c1 : Conn} {f1 : Frame} {k : Bool}, Rcpt c ok f c1 f1 k →
      (c1.out = c.out ∧ c1.wfail = c.wfail ∧ f1 = f ∧ f.header.contains Hdr.receipt = none) ∨
      (∃ v, f.header.contains Hdr.receipt = some v ∧ c1.out = c.out ++ [⟨some (receiptFrame v), none⟩] ∧ c1.wfail = c.wfail ∧
        f1 = strip Hdr.receipt f) ∨ (c1.out = c.out ∧ c1.wfail = true) := by
    intro c1 f1 k hr
    cases hr with
    | none h => exact Or.inl ⟨rfl, rfl, rfl, h⟩
    | sent v h => exact Or.inr (Or.inl ⟨v, h, rfl, rfl, rfl⟩)
    | failed v h => exact Or.inr (Or.inr ⟨rfl, rfl⟩)
  have lift : ∀ {c1 : Conn} {f1 : Frame} {k : Bool} (c2 : Conn), Rcpt c ok f c1 f1 k → c2.out = c1.out → c2.wfail = c1.wfail →
      (c2.out = c.out ∧ c2.wfail = c.wfail ∧ f1 = f ∧
      (f.header.contains Hdr.receipt = none ∨ (∃ e, r = .err e) ∨ ((f.command = Cmd.subscribe ∨ f.command = Cmd.unsubscribe) ∧ r = .ok))) ∨
    (∃ v, f.header.contains Hdr.receipt = some v ∧ c2.out = c.out ++ [⟨some (receiptFrame v), none⟩] ∧ c2.wfail = c.wfail ∧
      f1 = strip Hdr.receipt f) ∨
    (c2.out = c.out ∧ c2.wfail = true) := by
    intro c1 f1 k c2 hr h1 h2
    rcases key hr with ⟨a, b, d, e⟩ | ⟨v, a, b, d, e⟩ | ⟨a, b⟩
    · exact Or.inl ⟨h1.trans a, h2.trans b, d, Or.inl e⟩
    · exact Or.inr (Or.inl ⟨v, a, h1.trans b, h2.trans d, e⟩)
    · exact Or.inr (Or.inr ⟨h1.trans a, h2.trans b⟩)
  cases h with
  | commitMissing => exact Or.inl ⟨rfl, rfl, rfl, Or.inr (Or.inl ⟨_, rfl⟩)⟩
  | commitWrite _ _ _ hr => exact lift _ hr rfl rfl
  | commitUnknown _ _ _ _ hr => exact lift _ hr rfl rfl
  | commit _ _ _ _ _ hr hcm =>
    have : ∀ {a : Conn} {l : List Frame} {b : Conn} {r : Res}, Committed a l b r → b.out = a.out ∧ b.wfail = a.wfail := by
      intro a l b r h
      induction h with
      | nil => exact ⟨rfl, rfl⟩
      | cons h _ ih => exact ⟨ih.1.trans h.out.1, ih.2.trans h.out.2⟩
      | panic h => exact h.out
    exact lift _ hr (this hcm).1 (this hcm).2
  | basic hnc hb =>
    cases hb with
    | unexpected => exact Or.inl ⟨rfl, rfl, rfl, Or.inr (Or.inl ⟨_, rfl⟩)⟩
    | disconnect hc hr => exact lift _ hr rfl rfl
    | refused => exact Or.inl ⟨rfl, rfl, rfl, Or.inr (Or.inl ⟨_, rfl⟩)⟩
    | writeFail hc hr => exact lift _ hr rfl rfl
    | txErr _ _ _ _ _ hr => exact lift _ hr rfl rfl
    | begin_ _ _ _ _ hr => exact lift _ hr rfl rfl
    | abort _ _ _ _ _ hr => exact lift _ hr rfl rfl
    | store _ _ _ _ _ _ hr => exact lift _ hr rfl rfl
    | subscribe hc => exact Or.inl ⟨rfl, rfl, rfl, Or.inr (Or.inr ⟨Or.inl hc, rfl⟩)⟩
    | unsubscribe hc => exact Or.inl ⟨rfl, rfl, rfl, Or.inr (Or.inr ⟨Or.inr hc, rfl⟩)⟩
    | send _ _ hr => exact lift _ hr rfl rfl
    | ack _ _ _ _ hr => exact lift _ hr rfl rfl
    | nack _ _ _ _ hr => exact lift _ hr rfl rfl

/-- All outcomes of a frame step: the handshake accepted or refused, or a frame of a connected connection. -/
theorem frame_cases {cfg : Config} {c : Conn} {ok1 ok2 : Bool} {f : Frame} {q : List Frame} {c' c'' : Conn} {f' : Frame} {r : Res}
    (hg : Gate cfg c)
    (hs : ({ c with inq := q, hist := c.hist ++ [f] } : Conn).stateFunc cfg ok1 f = (c', f', r))
    (hf : Fin cfg c' ok2 f' r c'') :
    (c.connected = false ∧ (∃ v cx cy, Accepts cfg f v cx cy ∧
      ((c.wfail = false ∧ c'' = ({ c with inq := q, hist := c.hist ++ [f], version := v, writeTimeout := Conn.raise cy (asMilliseconds cfg.heartBeat maxHeartBeat), out := c.out ++ [⟨some (connectedFrame v (Conn.raise cx (asMilliseconds cfg.heartBeat maxHeartBeat)) (Conn.raise cy (asMilliseconds cfg.heartBeat maxHeartBeat))), none⟩], connected := true } : Conn).emit [.connected c.me]) ∨
       ((ok1 = false ∨ c.wfail = true) ∧ c'' = ({ c with inq := q, hist := c.hist ++ [f], version := v, writeTimeout := Conn.raise cy (asMilliseconds cfg.heartBeat maxHeartBeat), wfail := true, connected := true } : Conn).emit [.connected c.me])))) ∨
    (c.connected = false ∧ (¬∃ v cx cy, Accepts cfg f v cx cy) ∧ ∃ e v, (c.wfail = false ∧ c'' = { c with inq := q, hist := c.hist ++ [f], version := v, out := c.out ++ [⟨some (errorFrame cfg e f), none⟩], stage := .discard1, tx := [] }) ∨
      ((ok2 = false ∨ c.wfail = true) ∧ c'' = { c with inq := q, hist := c.hist ++ [f], version := v, wfail := true, stage := .discard1, tx := [] })) ∨
    (c.connected = true ∧ Handled { c with inq := q, hist := c.hist ++ [f] } ok1 f c' f' r ∧ Fin cfg c' ok2 f' r c'') := by
  by_cases hc : c.connected = true
  · right; right
    have hh := handled cfg { c with inq := q, hist := c.hist ++ [f] } ok1 f hc hg.tx
    rw [hs] at hh
    exact ⟨hc, hh, hf⟩
  · have hc : c.connected = false := by simpa using hc
    unfold Conn.stateFunc at hs
    rw [if_pos (by simp [hc])] at hs
    rcases connecting_cases cfg { c with inq := q, hist := c.hist ++ [f] } ok1 f with ⟨v, cx, cy, hac, he⟩ | ⟨hna, e, v, he⟩
    · left
      refine ⟨hc, v, cx, cy, hac, ?_⟩
      rw [he] at hs
      dsimp only at hs
      rcases Conn.write_cases ({ c with inq := q, hist := c.hist ++ [f], version := v, writeTimeout := Conn.raise cy (asMilliseconds cfg.heartBeat maxHeartBeat) } : Conn) ok1
        (some (connectedFrame v (Conn.raise cx (asMilliseconds cfg.heartBeat maxHeartBeat)) (Conn.raise cy (asMilliseconds cfg.heartBeat maxHeartBeat)))) none with ⟨_, hw0, hw⟩ | ⟨hw0, hw⟩
      · rw [hw] at hs
        injection hs with e1 e2
        injection e2 with e2 e3
        subst e1 e3
        cases hf
        exact Or.inl ⟨hw0, rfl⟩
      · rw [hw] at hs
        injection hs with e1 e2
        injection e2 with e2 e3
        subst e1 e3
        cases hf
        exact Or.inr ⟨hw0, rfl⟩
    · right; left
      refine ⟨hc, hna, e, v, ?_⟩
      rw [he] at hs
      injection hs with e1 e2
      injection e2 with e2 e3
      subst e1 e2 e3
      cases hf with
      | err e _ hw => exact Or.inl ⟨hw, rfl⟩
      | errFail e hw => exact Or.inr ⟨hw, rfl⟩

/-- The environment only delivers MESSAGE frames. -/
def EnvOk : Conn.Ev → Prop
  | .setFrame _ m => m.frame.command = Cmd.message
  | .pushTopic m => m.frame.command = Cmd.message
  | _ => True

/-- All frames waiting to be delivered are MESSAGE frames. -/
structure MsgsOk (c : Conn) : Prop where
  heap : ∀ s ∈ c.heap, ∀ m, s.frame = some m → m.frame.command = Cmd.message
  writeCh : ∀ m ∈ c.writeCh, m.frame.command = Cmd.message

theorem mem_modify {α : Type} (l : List α) (i : Nat) (g : α → α) (x : α) (h : x ∈ l.modify i g) :
    x ∈ l ∨ ∃ y ∈ l, x = g y := by
  induction l generalizing i with
  | nil => rw [List.modify_nil] at h; simp at h
  | cons a l ih =>
    cases i with
    | zero =>
      rcases List.mem_cons.1 h with h | h
      · exact Or.inr ⟨a, by simp, h⟩
      · exact Or.inl (by simp [h])
    | succ i =>
      rcases List.mem_cons.1 h with h | h
      · exact Or.inl (by simp [h])
      · rcases ih i h with h | ⟨y, hy, h⟩
        · exact Or.inl (by simp [h])
        · exact Or.inr ⟨y, by simp [hy], h⟩

/-- Frames in the heap. -/
def HeapOk (heap : List Sub) : Prop := ∀ s ∈ heap, ∀ m, s.frame = some m → m.frame.command = Cmd.message

theorem HeapOk.putFrame {heap : List Sub} (h : HeapOk heap) (i : Nat) (m : Option Msg)
    (hm : ∀ x, m = some x → x.frame.command = Cmd.message) : HeapOk (putFrame heap i m) := by
  intro s hs x hx
  rcases mem_modify heap i _ s hs with hs | ⟨y, hy, rfl⟩
  · exact h s hs x hx
  · exact hm x hx

theorem HeapOk.putInList {heap : List Sub} (h : HeapOk heap) (i : Nat) (b : Bool) : HeapOk (putInList heap i b) := by
  intro s hs x hx
  rcases mem_modify heap i _ s hs with hs | ⟨y, hy, rfl⟩
  · exact h s hs x hx
  · exact h y hy x hx

theorem HeapOk.foldl {heap : List Sub} (h : HeapOk heap) (l : List Nat) (g : List Sub → Nat → List Sub)
    (hg : ∀ h i, HeapOk h → HeapOk (g h i)) : HeapOk (l.foldl g heap) := by
  induction l generalizing heap with
  | nil => exact h
  | cons i l ih => exact ih (hg heap i h)

theorem HeapOk.clearFrames {heap : List Sub} (h : HeapOk heap) (l : List Nat) : HeapOk (Conn.clearFrames heap l) :=
  h.foldl l _ (fun _ i hh => hh.putFrame i none (by simp))

theorem HeapOk.deref {heap : List Sub} (h : HeapOk heap) {i : Nat} {m : Msg} (hf : (deref heap i).frame = some m) :
    m.frame.command = Cmd.message := by
  unfold Server.deref at hf
  rw [List.getD_eq_getElem?_getD] at hf
  cases hi : heap[i]? with
  | none => rw [hi] at hf; cases hf
  | some s => rw [hi] at hf; exact h s (List.mem_of_getElem? hi) m hf

theorem Applied.heapOk {c : Conn} {f : Frame} {c' : Conn} {r : Res} (h : Applied c f c' r) (hh : HeapOk c.heap) :
    HeapOk c'.heap := by
  cases h with
  | send => exact hh
  | ack => exact hh.clearFrames _
  | nack => exact hh.clearFrames _

theorem Committed.heapOk {c : Conn} {fs : List Frame} {c' : Conn} {r : Res} (h : Committed c fs c' r) (hh : HeapOk c.heap) :
    HeapOk c'.heap := by
  induction h with
  | nil => exact hh
  | cons h _ ih => exact ih (h.heapOk hh)
  | panic h => exact h.heapOk hh

theorem Handled.heapOk {c : Conn} {ok : Bool} {f : Frame} {c' : Conn} {f' : Frame} {r : Res} (h : Handled c ok f c' f' r)
    (hh : HeapOk c.heap) : HeapOk c'.heap := by
  have key : ∀ {c1 : Conn} {f1 : Frame} {k : Bool}, Rcpt c ok f c1 f1 k → HeapOk c1.heap := by
    intro c1 f1 k hr; rw [hr.frame.2.2.2.1]; exact hh
  cases h with
  | commitMissing => exact hh
  | commitWrite _ _ _ hr => exact (have := key hr; this)
  | commitUnknown _ _ _ _ hr => exact (have := key hr; this)
  | commit _ _ _ _ _ hr hcm => exact hcm.heapOk (key hr)
  | basic hnc hb =>
    cases hb with
    | unexpected => exact hh
    | disconnect hc hr => exact (have := key hr; this)
    | refused => exact hh
    | writeFail hc hr => exact (have := key hr; this)
    | txErr _ _ _ _ _ hr => exact (have := key hr; this)
    | begin_ _ _ _ _ hr => exact (have := key hr; this)
    | abort _ _ _ _ _ hr => exact (have := key hr; this)
    | store _ _ _ _ _ _ hr => exact (have := key hr; this)
    | subscribe hc =>
      intro s hs m hm
      rcases List.mem_append.1 hs with hs | hs
      · exact hh s hs m hm
      · rw [List.mem_singleton] at hs; subst hs; cases hm
    | unsubscribe hc => exact hh
    | send _ _ hr => exact (have := key hr; this)
    | ack _ _ _ _ hr => exact HeapOk.clearFrames (key hr) _
    | nack _ _ _ _ hr => exact HeapOk.clearFrames (key hr) _

theorem msgsOk_step {cfg : Config} {c : Conn} {e : Conn.Ev} {c' : Conn} (hg : Gate cfg c) (hm : MsgsOk c) (he : EnvOk e)
    (h : Step cfg c e c') : MsgsOk c' := by
  have hh : HeapOk c.heap := hm.heap
  have hal : ∀ (m : Msg) n a, m.frame.command = Cmd.message → (m.alloc n a).frame.command = Cmd.message := by
    intro m n a h; show (allocFrame _ _ _).command = _; rw [allocFrame_command]; exact h
  cases h with
  | recv f => exact ⟨hh, hm.writeCh⟩
  | readErr => exact ⟨hh, hm.writeCh⟩
  | frame ok1 ok2 f q c1 _ f' r ha hq hsf hfin =>
    rcases frame_cases hg hsf hfin with ⟨_, v, cx, cy, _, ⟨_, rfl⟩ | ⟨_, rfl⟩⟩ | ⟨_, _, e, v, ⟨_, rfl⟩ | ⟨_, rfl⟩⟩ | ⟨_, hh', hf⟩
    · exact ⟨hh, hm.writeCh⟩
    · exact ⟨hh, hm.writeCh⟩
    · exact ⟨hh, hm.writeCh⟩
    · exact ⟨hh, hm.writeCh⟩
    · have h1 := hh'.heapOk hh
      have h2 : ∀ m ∈ c1.writeCh, m.frame.command = Cmd.message := by rw [hh'.keeps.writeCh]; exact hm.writeCh
      cases hf <;> exact ⟨h1, h2⟩
  | readClosed => exact ⟨hh, hm.writeCh⟩
  | wrOk m w _ hw => exact ⟨hh, fun m hm' => hm.writeCh m (by rw [hw]; simp [hm'])⟩
  | wrErr m w _ hw => exact ⟨hh, fun m hm' => hm.writeCh m (by rw [hw]; simp [hm'])⟩
  | wrFail ok m w _ hw => exact ⟨hh, fun m hm' => hm.writeCh m (by rw [hw]; simp [hm'])⟩
  | subGone => exact ⟨hh, hm.writeCh⟩
  | subNil => exact ⟨hh, hm.writeCh⟩
  | subFail ok i l j m _ _ _ hf => exact ⟨hh.putFrame _ _ (by rintro x ⟨rfl⟩; exact hal _ _ _ (hh.deref hf)), hm.writeCh⟩
  | subAuto i l j m _ _ _ hf =>
    exact ⟨HeapOk.putFrame (hh.putFrame _ _ (by rintro x ⟨rfl⟩; exact hal _ _ _ (hh.deref hf))) _ _ (by simp), hm.writeCh⟩
  | subPanic i l j m _ _ _ hf => exact ⟨hh.putFrame _ _ (by rintro x ⟨rfl⟩; exact hal _ _ _ (hh.deref hf)), hm.writeCh⟩
  | subAdd i l j m _ _ _ hf =>
    exact ⟨HeapOk.putInList (hh.putFrame _ _ (by rintro x ⟨rfl⟩; exact hal _ _ _ (hh.deref hf))) _ _, hm.writeCh⟩
  | timerOk => exact ⟨hh, hm.writeCh⟩
  | timerFail => exact ⟨hh, hm.writeCh⟩
  | discard m w _ _ hw => exact ⟨hh, fun m hm' => hm.writeCh m (by rw [hw]; simp [hm'])⟩
  | discardEnd => exact ⟨hh, hm.writeCh⟩
  | acklist => exact ⟨hh.foldl _ _ (fun h i hh => hh.putInList i false), hm.writeCh⟩
  | drain => exact ⟨hh, hm.writeCh⟩
  | drainEnd => exact ⟨hh, hm.writeCh⟩
  | announce => exact ⟨hh, hm.writeCh⟩
  | unsub => exact ⟨hh, hm.writeCh⟩
  | flushed => exact ⟨hh, hm.writeCh⟩
  | setFrame i m => exact ⟨hh.putFrame _ _ (by rintro x ⟨rfl⟩; exact he), hm.writeCh⟩
  | setInList => exact ⟨hh.putInList _ _, hm.writeCh⟩
  | pushSub => exact ⟨hh, hm.writeCh⟩
  | pushTopic m =>
    refine ⟨hh, fun x hx => ?_⟩
    rcases List.mem_append.1 hx with hx | hx
    · exact hm.writeCh x hx
    · rw [List.mem_singleton] at hx; subst hx; exact he

/-- A frame without a body whose header names are those the server gives to its answers. -/
theorem reply_wf {g : Frame} (hc : g.command ∈ [b!"CONNECTED", b!"ERROR", b!"RECEIPT"]) (hb : g.body = [])
    (hn : ∀ e ∈ g.header, e.1 ∈ [b!"version", b!"server", b!"heart-beat", b!"message", b!"receipt-id"]) : Stomp.Spec.WellFormed g := by
  have hne : ∀ e ∈ g.header, e.1 ≠ [] ∧ e.1 ≠ b!"content-length" := by
    intro e he
    have := hn e he
    simp only [List.mem_cons, List.not_mem_nil, or_false] at this
    rcases this with h | h | h | h | h <;> rw [h] <;> decide
  refine ⟨?_, fun e he => (hne e he).1, ?_⟩
  · simp only [List.mem_cons, List.not_mem_nil, or_false] at hc
    rcases hc with h | h | h <;> rw [h] <;> decide
  · unfold Stomp.Spec.BodyOk
    have : Stomp.Spec.firstValue g.header b!"content-length" = none := by
      rw [firstValue_none_iff]
      intro e he
      exact (hne e he).2
    rw [this, hb]
    simp

theorem connected_reply_wf (v : Bytes) (cx cy : Nat) : Stomp.Spec.WellFormed (connectedFrame v cx cy) := by
  refine reply_wf (by simp [connectedFrame]) rfl ?_
  intro e he
  simp only [connectedFrame, List.mem_cons, List.not_mem_nil, or_false] at he
  rcases he with rfl | rfl | rfl <;> simp

theorem error_reply_wf (cfg : Config) (e : Err) (f : Frame) : Stomp.Spec.WellFormed (errorFrame cfg e f) := by
  refine reply_wf (by simp [errorFrame]) rfl ?_
  intro e he
  unfold errorFrame at he
  split at he <;> simp only [List.mem_cons, List.not_mem_nil, or_false] at he
  · rcases he with rfl | rfl <;> simp
  · subst he; simp

theorem receipt_reply_wf (v : Bytes) : Stomp.Spec.WellFormed (receiptFrame v) := by
  refine reply_wf (by simp [receiptFrame]) rfl ?_
  intro e he
  simp only [receiptFrame, List.mem_cons, List.not_mem_nil, or_false] at he
  subst he; simp

/-- What one step writes; answers are well-formed. -/
theorem out_step_wf {cfg : Config} {c : Conn} {e : Conn.Ev} {c' : Conn} (hg : Gate cfg c) (hm : MsgsOk c) (h : Step cfg c e c') :
    (c'.out = c.out ∧ (c'.lastMsgId = c.lastMsgId ∨ c.stage = .run ∧ c'.stage ≠ .run ∧ c'.lastMsgId = (c.lastMsgId + 1) % 2 ^ 64)) ∨
    (isFrame e = true ∧ c'.lastMsgId = c.lastMsgId ∧ c.stage = .run ∧ ∃ new, c'.out = c.out ++ new ∧
      ∀ w ∈ new, w.tag = none ∧ ∃ g, w.frame = some g ∧ (g.command = Cmd.receipt ∨ g.command = Cmd.error ∨ g.command = Cmd.connected) ∧ Stomp.Spec.WellFormed g) ∨
    (isFrame e = false ∧ c'.lastMsgId = c.lastMsgId ∧ c'.out = c.out ++ [⟨none, none⟩] ∧ c.stage = .run ∧ 0 < c.writeTimeout) ∨
    (isFrame e = false ∧ c.stage = .run ∧ ∃ (m : Msg) (a : Option Bytes), m.frame.command = Cmd.message ∧
      c'.lastMsgId = (c.lastMsgId + 1) % 2 ^ 64 ∧ c'.out = c.out ++ [⟨some (m.alloc c.lastMsgId a).frame, some m.tag⟩]) := by
  have hnx : ∀ (m : Msg), m.frame.command = Cmd.message → allocNext c.lastMsgId m.frame = (c.lastMsgId + 1) % 2 ^ 64 := by
    intro m h; unfold allocNext; rw [if_pos (Or.inl h)]
  have hh : HeapOk c.heap := hm.heap
  cases h with
  | recv f => exact Or.inl ⟨rfl, Or.inl rfl⟩
  | readErr => exact Or.inl ⟨rfl, Or.inl rfl⟩
  | frame ok1 ok2 f q c1 _ f' r ha hq hsf hfin =>
    have hrun := (atSelect_run ha).1
    rcases frame_cases hg hsf hfin with ⟨_, v, cx, cy, _, ⟨_, rfl⟩ | ⟨_, rfl⟩⟩ | ⟨_, _, e, v, ⟨_, rfl⟩ | ⟨_, rfl⟩⟩ | ⟨_, hh', hf⟩
    · refine Or.inr (Or.inl ⟨rfl, rfl, hrun, _, rfl, ?_⟩)
      intro w hw; rw [List.mem_singleton] at hw; subst hw; exact ⟨rfl, _, rfl, Or.inr (Or.inr rfl), connected_reply_wf _ _ _⟩
    · exact Or.inl ⟨rfl, Or.inl rfl⟩
    · refine Or.inr (Or.inl ⟨rfl, rfl, hrun, _, rfl, ?_⟩)
      intro w hw; rw [List.mem_singleton] at hw; subst hw; exact ⟨rfl, _, rfl, Or.inr (Or.inl rfl), error_reply_wf _ _ _⟩
    · exact Or.inl ⟨rfl, Or.inl rfl⟩
    · refine Or.inr (Or.inl ⟨rfl, ?_, hrun, ?_⟩)
      · have := hh'.keeps.lastMsgId
        cases hf <;> exact this
      · have h1 : ∃ new, c1.out = c.out ++ new ∧
            ∀ w ∈ new, w.tag = none ∧ ∃ g, w.frame = some g ∧ (g.command = Cmd.receipt ∨ g.command = Cmd.error ∨ g.command = Cmd.connected) ∧ Stomp.Spec.WellFormed g := by
          rcases hh'.out with ⟨h, _⟩ | ⟨v, _, h, _⟩ | ⟨h, _⟩
          · exact ⟨[], by simp [h], by simp⟩
          · refine ⟨_, h, ?_⟩
            intro w hw; rw [List.mem_singleton] at hw; subst hw; exact ⟨rfl, _, rfl, Or.inl rfl, receipt_reply_wf _⟩
          · exact ⟨[], by simp [h], by simp⟩
        obtain ⟨new, h1, h2⟩ := h1
        cases hf with
        | ok => exact ⟨new, h1, h2⟩
        | panic => exact ⟨new, h1, h2⟩
        | err e =>
          refine ⟨new ++ [⟨some (errorFrame cfg e f'), none⟩], ?_, ?_⟩
          · show c1.out ++ _ = _; rw [h1, List.append_assoc]
          · intro w hw
            rcases List.mem_append.1 hw with hw | hw
            · exact h2 w hw
            · rw [List.mem_singleton] at hw; subst hw; exact ⟨rfl, _, rfl, Or.inr (Or.inl rfl), error_reply_wf _ _ _⟩
        | errFail e => exact ⟨new, h1, h2⟩
  | readClosed => exact Or.inl ⟨rfl, Or.inl rfl⟩
  | wrOk m w ha hw hwf hc =>
    have := hm.writeCh m (by rw [hw]; simp)
    exact Or.inr (Or.inr (Or.inr ⟨rfl, (atSelect_run ha).1, m, none, this, hnx m this, rfl⟩))
  | wrErr m w ha hw hwf hc =>
    have := hm.writeCh m (by rw [hw]; simp)
    exact Or.inr (Or.inr (Or.inr ⟨rfl, (atSelect_run ha).1, m, none, this, hnx m this, rfl⟩))
  | wrFail ok m w ha hw =>
    have := hm.writeCh m (by rw [hw]; simp)
    exact Or.inl ⟨rfl, Or.inr ⟨(atSelect_run ha).1, by simp, hnx m this⟩⟩
  | subGone => exact Or.inl ⟨rfl, Or.inl rfl⟩
  | subNil => exact Or.inl ⟨rfl, Or.inl rfl⟩
  | subFail ok i l j m ha _ _ hf =>
    have := hh.deref hf
    exact Or.inl ⟨rfl, Or.inr ⟨(atSelect_run ha).1, by simp, hnx m this⟩⟩
  | subAuto i l j m ha _ _ hf =>
    have := hh.deref hf
    exact Or.inr (Or.inr (Or.inr ⟨rfl, (atSelect_run ha).1, m, _, this, hnx m this, rfl⟩))
  | subPanic i l j m ha _ _ hf =>
    have := hh.deref hf
    exact Or.inr (Or.inr (Or.inr ⟨rfl, (atSelect_run ha).1, m, _, this, hnx m this, rfl⟩))
  | subAdd i l j m ha _ _ hf =>
    have := hh.deref hf
    exact Or.inr (Or.inr (Or.inr ⟨rfl, (atSelect_run ha).1, m, _, this, hnx m this, rfl⟩))
  | timerOk ha ht => exact Or.inr (Or.inr (Or.inl ⟨rfl, rfl, rfl, (atSelect_run ha).1, ht⟩))
  | timerFail => exact Or.inl ⟨rfl, Or.inl rfl⟩
  | discard => exact Or.inl ⟨rfl, Or.inl rfl⟩
  | discardEnd => exact Or.inl ⟨rfl, Or.inl rfl⟩
  | acklist => exact Or.inl ⟨rfl, Or.inl rfl⟩
  | drain => exact Or.inl ⟨rfl, Or.inl rfl⟩
  | drainEnd => exact Or.inl ⟨rfl, Or.inl rfl⟩
  | announce => exact Or.inl ⟨rfl, Or.inl rfl⟩
  | unsub => exact Or.inl ⟨rfl, Or.inl rfl⟩
  | flushed => exact Or.inl ⟨rfl, Or.inl rfl⟩
  | setFrame => exact Or.inl ⟨rfl, Or.inl rfl⟩
  | setInList => exact Or.inl ⟨rfl, Or.inl rfl⟩
  | pushSub => exact Or.inl ⟨rfl, Or.inl rfl⟩
  | pushTopic => exact Or.inl ⟨rfl, Or.inl rfl⟩

theorem msgsOk_init (me : Nat) : MsgsOk (Conn.init me) := ⟨by simp [Conn.init], by simp [Conn.init]⟩

/-- What one step writes. -/
theorem out_step {cfg : Config} {c : Conn} {e : Conn.Ev} {c' : Conn} (hg : Gate cfg c) (hm : MsgsOk c) (h : Step cfg c e c') :
    (c'.out = c.out ∧ (c'.lastMsgId = c.lastMsgId ∨ c.stage = .run ∧ c'.stage ≠ .run ∧ c'.lastMsgId = (c.lastMsgId + 1) % 2 ^ 64)) ∨
    (isFrame e = true ∧ c'.lastMsgId = c.lastMsgId ∧ c.stage = .run ∧ ∃ new, c'.out = c.out ++ new ∧
      ∀ w ∈ new, w.tag = none ∧ ∃ g, w.frame = some g ∧ (g.command = Cmd.receipt ∨ g.command = Cmd.error ∨ g.command = Cmd.connected)) ∨
    (isFrame e = false ∧ c'.lastMsgId = c.lastMsgId ∧ c'.out = c.out ++ [⟨none, none⟩] ∧ c.stage = .run ∧ 0 < c.writeTimeout) ∨
    (isFrame e = false ∧ c.stage = .run ∧ ∃ (m : Msg) (a : Option Bytes), m.frame.command = Cmd.message ∧
      c'.lastMsgId = (c.lastMsgId + 1) % 2 ^ 64 ∧ c'.out = c.out ++ [⟨some (m.alloc c.lastMsgId a).frame, some m.tag⟩]) := by
  rcases out_step_wf hg hm h with h1 | ⟨h1, h2, h3, new, h4, h5⟩ | h1 | h1
  · exact Or.inl h1
  · refine Or.inr (Or.inl ⟨h1, h2, h3, new, h4, fun w hw => ?_⟩)
    obtain ⟨k1, g, k2, k3, _⟩ := h5 w hw
    exact ⟨k1, g, k2, k3⟩
  · exact Or.inr (Or.inr (Or.inl h1))
  · exact Or.inr (Or.inr (Or.inr h1))

/-- Induction over runs in an environment that delivers MESSAGE frames, with the basic invariants at hand. -/
theorem run_inv {cfg : Config} {me : Nat} {P : Conn → Prop}
    (hstep : ∀ c e c', Gate cfg c → MsgsOk c → EnvOk e → P c → Step cfg c e c' → P c') (es : List Conn.Ev) (c : Conn)
    (hq : ∀ e ∈ es, EnvOk e) (h0 : P (Conn.init me)) (h : (Conn.init me).run cfg es = some c) : Gate cfg c ∧ MsgsOk c ∧ P c :=
  run_induction (P := fun c => Gate cfg c ∧ MsgsOk c ∧ P c) (Q := EnvOk)
    (fun c e c' he hp hs => ⟨gate_step cfg c e c' hp.1 hs, msgsOk_step hp.1 hp.2.1 he hs, hstep c e c' hp.1 hp.2.1 he hp.2.2 hs⟩)
    es _ _ hq ⟨gate_init cfg me, msgsOk_init me, h0⟩ h

end Stomp.Server
