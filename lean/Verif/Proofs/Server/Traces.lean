import Verif.Proofs.Server.Output
/-! # Tying the ghost logs of a connection to its events; subscription ids; message ids -/
namespace Stomp.Server
open Stomp

/-- The frames that arrived from the client, in order. -/
def received (es : List Conn.Ev) : List Frame :=
  es.filterMap (fun | .recv f => some f | _ => none)

/-- The requests the processor has accepted from a connection in a run, in order. -/
def Conn.requests (cfg : Config) : Conn → List Conn.Ev → List Req
  | _, [] => []
  | c, e :: es =>
    match c.step cfg e with
    | none => []
    | some c' =>
      (match e, c.outbox with
        | .flushed, .req r :: _ => [r]
        | _, _ => []) ++ Conn.requests cfg c' es

/-- The requests still to be sent. -/
def pending (o : List Out) : List Req := o.filterMap (fun | .req r => some r | .panic => none)

theorem pending_append (a b : List Out) : pending (a ++ b) = pending a ++ pending b := by
  unfold pending; rw [List.filterMap_append]

theorem pending_map (l : List Req) : pending (l.map .req) = l := by
  unfold pending; rw [List.filterMap_map]
  exact List.filterMap_some

theorem Applied.emits {c : Conn} {f : Frame} {c' : Conn} {r : Res} (h : Applied c f c' r) :
    ∃ l, c'.log = c.log ++ l ∧ c'.outbox = c.outbox ++ l.map .req := by
  cases h <;> exact ⟨_, rfl, rfl⟩

theorem Committed.emits {c : Conn} {fs : List Frame} {c' : Conn} {r : Res} (h : Committed c fs c' r) :
    ∃ l, c'.log = c.log ++ l ∧ c'.outbox = c.outbox ++ l.map .req := by
  induction h with
  | nil => exact ⟨[], by simp, by simp⟩
  | cons h _ ih =>
    obtain ⟨l, h1, h2⟩ := h.emits
    obtain ⟨l', h3, h4⟩ := ih
    exact ⟨l ++ l', by rw [h3, h1]; simp, by rw [h4, h2]; simp⟩
  | panic h => exact h.emits

theorem Handled.emits {c : Conn} {ok : Bool} {f : Frame} {c' : Conn} {f' : Frame} {r : Res} (h : Handled c ok f c' f' r) :
    ∃ l, c'.log = c.log ++ l ∧ c'.outbox = c.outbox ++ l.map .req := by
  have z : ∀ {c1 : Conn} {f1 : Frame} {k : Bool} (c2 : Conn), Rcpt c ok f c1 f1 k →
      (∃ l, c2.log = c1.log ++ l ∧ c2.outbox = c1.outbox ++ l.map .req) → ∃ l, c2.log = c.log ++ l ∧ c2.outbox = c.outbox ++ l.map .req := by
    intro c1 f1 k c2 hr ⟨l, h1, h2⟩
    refine ⟨l, ?_, ?_⟩
    · rw [h1, hr.frame.2.2.2.2.2.1]
    · rw [h2, hr.frame.2.2.1]
  have n : ∀ c1 : Conn, ∃ l, c1.log = c1.log ++ l ∧ c1.outbox = c1.outbox ++ l.map .req := fun c1 => ⟨[], by simp, by simp⟩
  cases h with
  | commitMissing => exact n c
  | commitWrite _ _ _ hr => exact z _ hr (n _)
  | commitUnknown _ _ _ _ hr => exact z _ hr (n _)
  | commit _ _ _ _ _ hr hcm => exact z _ hr hcm.emits
  | basic hnc hb =>
    cases hb with
    | unexpected => exact n c
    | disconnect hc hr => exact z _ hr (n _)
    | refused => exact n c
    | writeFail hc hr => exact z _ hr (n _)
    | txErr _ _ _ _ _ hr => exact z _ hr (n _)
    | begin_ _ _ _ _ hr => exact z _ hr ⟨[], by simp, by simp⟩
    | abort _ _ _ _ _ hr => exact z _ hr ⟨[], by simp, by simp⟩
    | store _ _ _ _ _ _ hr => exact z _ hr ⟨[], by simp, by simp⟩
    | subscribe hc => exact ⟨_, rfl, rfl⟩
    | unsubscribe hc => exact ⟨_, rfl, rfl⟩
    | send _ _ hr => exact z _ hr ⟨_, rfl, rfl⟩
    | ack _ _ _ _ hr => exact z _ hr ⟨_, rfl, rfl⟩
    | nack _ _ _ _ hr => exact z _ hr ⟨_, rfl, rfl⟩

/-- Every step appends to the log what it appends to the outbox, and only `flushed` removes from the outbox. -/
theorem emit_step {cfg : Config} {c : Conn} {e : Conn.Ev} {c' : Conn} (hg : Gate cfg c) (h : Step cfg c e c') :
    (∃ r o, e = .flushed ∧ c.outbox = .req r :: o ∧ c'.outbox = o ∧ c'.log = c.log) ∨
    (e ≠ .flushed ∧ ∃ l, c'.log = c.log ++ l ∧ pending c'.outbox = pending c.outbox ++ l) := by
  have n : ∀ {c' : Conn} {e : Conn.Ev}, e ≠ .flushed → c'.log = c.log → c'.outbox = c.outbox →
      (∃ r o, e = .flushed ∧ c.outbox = .req r :: o ∧ c'.outbox = o ∧ c'.log = c.log) ∨
      (e ≠ .flushed ∧ ∃ l, c'.log = c.log ++ l ∧ pending c'.outbox = pending c.outbox ++ l) := by
    intro c' e he h1 h2
    exact Or.inr ⟨he, [], by simp [h1], by simp [h2]⟩
  have m : ∀ {c' : Conn} {e : Conn.Ev} (l : List Req), e ≠ .flushed → c'.log = c.log ++ l → c'.outbox = c.outbox ++ l.map .req →
      (∃ r o, e = .flushed ∧ c.outbox = .req r :: o ∧ c'.outbox = o ∧ c'.log = c.log) ∨
      (e ≠ .flushed ∧ ∃ l, c'.log = c.log ++ l ∧ pending c'.outbox = pending c.outbox ++ l) := by
    intro c' e l he h1 h2
    exact Or.inr ⟨he, l, h1, by rw [h2, pending_append, pending_map]⟩
  have p : ∀ (o : List Out), pending (o ++ [.panic]) = pending o := by
    intro o; rw [pending_append]; simp [pending]
  cases h with
  | recv f => exact n (by simp) rfl rfl
  | readErr => exact n (by simp) rfl rfl
  | frame ok1 ok2 f q c1 _ f' r ha hq hsf hfin =>
    rcases frame_cases hg hsf hfin with ⟨_, v, cx, cy, _, ⟨_, rfl⟩ | ⟨_, rfl⟩⟩ | ⟨_, _, e, v, ⟨_, rfl⟩ | ⟨_, rfl⟩⟩ | ⟨_, hh', hf⟩
    · exact m _ (by simp) rfl rfl
    · exact m _ (by simp) rfl rfl
    · exact n (by simp) rfl rfl
    · exact n (by simp) rfl rfl
    · obtain ⟨l, h1, h2⟩ := hh'.emits
      have h1 : c1.log = c.log ++ l := h1
      have h2 : c1.outbox = c.outbox ++ l.map .req := h2
      cases hf with
      | ok => exact m l (by simp) h1 h2
      | panic =>
        refine Or.inr ⟨by simp, l, h1, ?_⟩
        show pending (c1.outbox ++ [.panic]) = _
        rw [p, h2, pending_append, pending_map]
      | err e => exact m l (by simp) h1 h2
      | errFail e => exact m l (by simp) h1 h2
  | readClosed => exact n (by simp) rfl rfl
  | wrOk => exact n (by simp) rfl rfl
  | wrErr => exact n (by simp) rfl rfl
  | wrFail => exact n (by simp) rfl rfl
  | subGone => exact m _ (by simp) rfl rfl
  | subNil => exact Or.inr ⟨by simp, [], by simp, by simp [p]⟩
  | subFail => exact n (by simp) rfl rfl
  | subAuto => exact m _ (by simp) rfl rfl
  | subPanic => exact Or.inr ⟨by simp, [], by simp, by simp [p]⟩
  | subAdd => exact n (by simp) rfl rfl
  | timerOk => exact n (by simp) rfl rfl
  | timerFail => exact n (by simp) rfl rfl
  | discard => exact n (by simp) rfl rfl
  | discardEnd => exact n (by simp) rfl rfl
  | acklist => exact m _ (by simp) rfl rfl
  | drain => exact m _ (by simp) rfl rfl
  | drainEnd => exact n (by simp) rfl rfl
  | announce => exact m _ (by simp) rfl rfl
  | unsub => exact m _ (by simp) rfl rfl
  | flushed r o ho => exact Or.inl ⟨r, o, rfl, ho, rfl, rfl⟩
  | setFrame => exact n (by simp) rfl rfl
  | setInList => exact n (by simp) rfl rfl
  | pushSub => exact n (by simp) rfl rfl
  | pushTopic => exact n (by simp) rfl rfl

theorem requests_aux {cfg : Config} (es : List Conn.Ev) (c c' : Conn) (hg : Gate cfg c) (h : c.run cfg es = some c')
    (pre : List Req) (hl : c.log = pre ++ pending c.outbox) :
    c'.log = pre ++ Conn.requests cfg c es ++ pending c'.outbox := by
  induction es generalizing c pre with
  | nil => simp only [Conn.run, Option.some.injEq] at h; subst h; simp [Conn.requests, hl]
  | cons e es ih =>
    simp only [Conn.run] at h
    unfold Conn.requests
    cases hs : c.step cfg e with
    | none => rw [hs] at h; cases h
    | some c1 =>
      rw [hs] at h
      have hst := step_of cfg c e c1 hs
      rcases emit_step hg hst with ⟨r, o, rfl, h1, h2, h3⟩ | ⟨h1, l, h2, h3⟩
      · rw [h1]
        have := ih c1 (gate_step cfg c _ c1 hg hst) h (pre ++ [r]) (by rw [h3, hl, h1, h2]; simp [pending])
        rw [this]; simp
      · have := ih c1 (gate_step cfg c _ c1 hg hst) h pre (by rw [h2, h3, hl]; simp)
        rw [this]
        cases e <;> first | exact absurd rfl h1 | rfl

/-- The log of a connection is what the processor has accepted followed by what is still to be sent. -/
theorem requests_log {cfg : Config} {me : Nat} {es : List Conn.Ev} {c : Conn} (h : (Conn.init me).run cfg es = some c) :
    c.log = Conn.requests cfg (Conn.init me) es ++ pending c.outbox := by
  have := requests_aux es _ c (gate_init cfg me) h [] rfl
  simpa using this

theorem hist_step {cfg : Config} {c : Conn} {e : Conn.Ev} {c' : Conn} (hg : Gate cfg c) (h : Step cfg c e c') :
    c.hist ++ c.inq ++ (match e with | .recv f => [f] | _ => []) = c'.hist ++ c'.inq := by
  cases h with
  | frame ok1 ok2 f q c1 _ f' r ha hq hsf hfin =>
    have : ∀ (c2 : Conn), c2.hist = c.hist ++ [f] → c2.inq = q → c.hist ++ c.inq ++ [] = c2.hist ++ c2.inq := by
      intro c2 h1 h2; rw [h1, h2, hq]; simp
    rcases frame_cases hg hsf hfin with ⟨_, v, cx, cy, _, ⟨_, rfl⟩ | ⟨_, rfl⟩⟩ | ⟨_, _, e, v, ⟨_, rfl⟩ | ⟨_, rfl⟩⟩ | ⟨_, hh', hf⟩
    · exact this _ rfl rfl
    · exact this _ rfl rfl
    · exact this _ rfl rfl
    · exact this _ rfl rfl
    · have h1 : c1.hist = c.hist ++ [f] := hh'.keeps.hist
      have h2 : c1.inq = q := hh'.keeps.inq
      cases hf <;> exact this _ h1 h2
  | recv f => simp
  | _ => simp [Conn.emit]

theorem received_aux {cfg : Config} (es : List Conn.Ev) (c c' : Conn) (hg : Gate cfg c) (h : c.run cfg es = some c') :
    c.hist ++ c.inq ++ received es = c'.hist ++ c'.inq := by
  induction es generalizing c with
  | nil => simp only [Conn.run, Option.some.injEq] at h; subst h; simp [received]
  | cons e es ih =>
    simp only [Conn.run] at h
    cases hs : c.step cfg e with
    | none => rw [hs] at h; cases h
    | some c1 =>
      rw [hs] at h
      have hst := step_of cfg c e c1 hs
      rw [← ih c1 (gate_step cfg c _ c1 hg hst) h, ← hist_step hg hst]
      cases e <;> simp [received]

/-- The frames processed are the first ones that arrived; the others are still in the read channel. -/
theorem received_eq {cfg : Config} {me : Nat} {es : List Conn.Ev} {c : Conn} (h : (Conn.init me).run cfg es = some c) :
    received es = c.hist ++ c.inq := by
  have := received_aux es _ c (gate_init cfg me) h
  simpa [Conn.init] using this

/-- Induction over runs with the gate invariant at hand. -/
theorem gate_induction {cfg : Config} {me : Nat} {P : Conn → Prop}
    (hstep : ∀ c e c', Gate cfg c → P c → Step cfg c e c' → P c') (es : List Conn.Ev) (c : Conn)
    (h0 : P (Conn.init me)) (h : (Conn.init me).run cfg es = some c) : Gate cfg c ∧ P c :=
  run_induction (P := fun c => Gate cfg c ∧ P c) (Q := fun _ => True)
    (fun c e c' _ hp hs => ⟨gate_step cfg c e c' hp.1 hs, hstep c e c' hp.1 hp.2 hs⟩)
    es _ _ (fun _ _ => trivial) ⟨gate_init cfg me, h0⟩ h

theorem me_step {cfg : Config} {c : Conn} {e : Conn.Ev} {c' : Conn} (hg : Gate cfg c) (h : Step cfg c e c') : c'.me = c.me := by
  cases hfr : isFrame e with
  | false => exact (quiet_step h hfr).me
  | true =>
    cases h with
    | frame ok1 ok2 f q c1 _ f' r ha hq hsf hfin =>
      rcases frame_cases hg hsf hfin with ⟨_, v, cx, cy, _, ⟨_, rfl⟩ | ⟨_, rfl⟩⟩ | ⟨_, _, e, v, ⟨_, rfl⟩ | ⟨_, rfl⟩⟩ | ⟨_, hh', hf⟩
      · rfl
      · rfl
      · rfl
      · rfl
      · have h1 : c1.me = c.me := hh'.keeps.me
        cases hf <;> exact h1
    | _ => cases hfr

theorem me_run {cfg : Config} {me : Nat} {es : List Conn.Ev} {c : Conn} (h : (Conn.init me).run cfg es = some c) : c.me = me :=
  (gate_induction (P := fun c => c.me = me) (fun _ _ _ hg hp hs => (me_step hg hs).trans hp) es c rfl h).2

/-! ## Handshake answers -/

/-- Writes that are not message deliveries. -/
def untagged (l : List Wr) : List Wr := l.filter (fun w => decide (w.tag = none))

theorem untagged_append (a b : List Wr) : untagged (a ++ b) = untagged a ++ untagged b := List.filter_append ..

/-- The frame is a CONNECTED frame. -/
def isConnected (w : Wr) : Bool := match w.frame with | some g => decide (g.command = b!"CONNECTED") | none => false

/-- What has been written in reply to the handshake. -/
structure Greeting (cfg : Config) (c : Conn) : Prop where
  silent : c.hist = [] → untagged c.out = []
  early : c.connected = false → c.writeTimeout = 0
  refused : c.connected = false → c.hist ≠ [] → (untagged c.out = [] ∧ c.wfail = true) ∨
    ∃ g, untagged c.out = [⟨some g, none⟩] ∧ g.command = b!"ERROR"
  accepted : c.connected = true → ∃ f rest v cx cy, c.hist = f :: rest ∧ Accepts cfg f v cx cy ∧
    ((c.wfail = true ∧ untagged c.out = []) ∨ ∃ g rest, untagged c.out = ⟨some g, none⟩ :: rest ∧ g.command = b!"CONNECTED" ∧
      Spec.hdr g b!"version" = some v ∧ ∀ w ∈ rest, isConnected w = false)

theorem wfail_step {cfg : Config} {c : Conn} {e : Conn.Ev} {c' : Conn} (hg : Gate cfg c) (h : Step cfg c e c')
    (hw : c.wfail = true) : c'.wfail = true ∧ c'.out = c.out := by
  cases h with
  | frame ok1 ok2 f q c1 _ f' r ha hq hsf hfin =>
    rcases frame_cases hg hsf hfin with ⟨_, v, cx, cy, _, ⟨hx, rfl⟩ | ⟨_, rfl⟩⟩ | ⟨_, _, e, v, ⟨hx, rfl⟩ | ⟨_, rfl⟩⟩ | ⟨_, hh', hf⟩
    · rw [hw] at hx; cases hx
    · exact ⟨rfl, rfl⟩
    · rw [hw] at hx; cases hx
    · exact ⟨rfl, rfl⟩
    · have h1 : c1.wfail = true ∧ c1.out = c.out := by
        have rc : ∀ {c1 : Conn} {f1 : Frame} {k : Bool}, Rcpt { c with inq := q, hist := c.hist ++ [f] } ok1 f c1 f1 k →
            c1.wfail = true ∧ c1.out = c.out := by
          intro c1 f1 k hr
          cases hr with
          | none => exact ⟨hw, rfl⟩
          | sent v h _ hx =>
            have hx : c.wfail = false := hx
            rw [hw] at hx; cases hx
          | failed => exact ⟨rfl, rfl⟩
        cases hh' with
        | commitMissing => exact ⟨hw, rfl⟩
        | commitWrite _ _ _ hr => exact rc hr
        | commitUnknown _ _ _ _ hr => exact rc hr
        | commit _ _ _ _ _ hr hcm =>
          have : ∀ {a : Conn} {l : List Frame} {b : Conn} {r : Res}, Committed a l b r → b.out = a.out ∧ b.wfail = a.wfail := by
            intro a l b r h
            induction h with
            | nil => exact ⟨rfl, rfl⟩
            | cons h _ ih => exact ⟨ih.1.trans h.out.1, ih.2.trans h.out.2⟩
            | panic h => exact h.out
          exact ⟨(this hcm).2.trans (rc hr).1, (this hcm).1.trans (rc hr).2⟩
        | basic hnc hb =>
          cases hb with
          | unexpected => exact ⟨hw, rfl⟩
          | disconnect hc hr => exact rc hr
          | refused => exact ⟨hw, rfl⟩
          | writeFail hc hr => exact rc hr
          | txErr _ _ _ _ _ hr => exact rc hr
          | begin_ _ _ _ _ hr => exact (have := rc hr; this)
          | abort _ _ _ _ _ hr => exact (have := rc hr; this)
          | store _ _ _ _ _ _ hr => exact (have := rc hr; this)
          | subscribe hc => exact ⟨hw, rfl⟩
          | unsubscribe hc => exact ⟨hw, rfl⟩
          | send _ _ hr => exact (have := rc hr; this)
          | ack _ _ _ _ hr => exact (have := rc hr; this)
          | nack _ _ _ _ hr => exact (have := rc hr; this)
      cases hf with
      | ok => exact h1
      | panic => exact h1
      | err e _ hx => rw [h1.1] at hx; cases hx
      | errFail => exact ⟨rfl, h1.2⟩
  | wrOk m w ha hw' hx => rw [hw] at hx; cases hx
  | wrErr m w ha hw' hx => rw [hw] at hx; cases hx
  | subAuto i l j m ha hl hgs hf hx => rw [hw] at hx; cases hx
  | subPanic i l j m ha hl hgs hf hx => rw [hw] at hx; cases hx
  | subAdd i l j m ha hl hgs hf hx => rw [hw] at hx; cases hx
  | timerOk ha ht hx => rw [hw] at hx; cases hx
  | wrFail => exact ⟨rfl, rfl⟩
  | subFail => exact ⟨rfl, rfl⟩
  | timerFail => exact ⟨rfl, rfl⟩
  | _ => exact ⟨hw, rfl⟩

theorem greeting_step {cfg : Config} {c : Conn} {e : Conn.Ev} {c' : Conn} (hg : Gate cfg c) (hm : MsgsOk c)
    (hp : Greeting cfg c) (h : Step cfg c e c') : Greeting cfg c' := by
  have hws := fun hw => wfail_step hg h hw
  cases hfr : isFrame e with
  | false =>
    have q := quiet_step h hfr
    have ho : untagged c'.out = untagged c.out ∨ (untagged c'.out = untagged c.out ++ [⟨none, none⟩] ∧ 0 < c.writeTimeout ∧ c.stage = .run) := by
      rcases out_step hg hm h with ⟨h1, _⟩ | ⟨h1, _⟩ | ⟨_, _, h1, h2, h3⟩ | ⟨_, _, m, a, _, _, h1⟩
      · left; rw [h1]
      · rw [hfr] at h1; cases h1
      · right; exact ⟨by rw [h1, untagged_append]; rfl, h3, h2⟩
      · left; rw [h1, untagged_append]; simp [untagged]
    refine ⟨?_, ?_, ?_, ?_⟩
    · intro hh
      rw [q.hist] at hh
      have h1 := hp.silent hh
      rcases ho with ho | ⟨_, ho, _⟩
      · rw [ho, h1]
      · exfalso
        cases hc : c.connected with
        | true => obtain ⟨f, rest, _, _, _, h2, _⟩ := hg.opened hc; rw [hh] at h2; cases h2
        | false => have := hp.early hc; omega
    · intro hc; rw [q.writeTimeout]; exact hp.early (by rw [← q.connected]; exact hc)
    · intro hc hh
      rw [q.connected] at hc
      rw [q.hist] at hh
      rcases ho with ho | ⟨_, ho, _⟩
      · rw [ho]
        rcases hp.refused hc hh with ⟨h1, h2⟩ | h1
        · exact Or.inl ⟨h1, q.wfail h2⟩
        · exact Or.inr h1
      · have := hp.early hc; omega
    · intro hc
      rw [q.connected] at hc
      obtain ⟨f, rest, v, cx, cy, h1, h2, h3⟩ := hp.accepted hc
      refine ⟨f, rest, v, cx, cy, q.hist.trans h1, h2, ?_⟩
      rcases h3 with ⟨h3, h4⟩ | ⟨g, r, h4, h5, h6, h7⟩
      · exact Or.inl ⟨(hws h3).1, by rw [(hws h3).2]; exact h4⟩
      · right
        rcases ho with ho | ⟨ho, _, _⟩
        · exact ⟨g, r, by rw [ho]; exact h4, h5, h6, h7⟩
        · refine ⟨g, r ++ [⟨none, none⟩], by rw [ho, h4]; rfl, h5, h6, ?_⟩
          intro w hw
          rcases List.mem_append.1 hw with hw | hw
          · exact h7 w hw
          · rw [List.mem_singleton] at hw; subst hw; rfl
  | true =>
    cases h with
    | frame ok1 ok2 f q c1 _ f' r ha hq hsf hfin =>
      have hrun := (atSelect_run ha).1
      have hempty : c.connected = false → c.hist = [] := by
        intro hc
        obtain ⟨_, _, _, _, _, _, _, h8⟩ := hg.closed hc
        rcases h8 with h8 | ⟨_, h8⟩
        · exact h8
        · exact absurd hrun h8
      rcases frame_cases hg hsf hfin with ⟨hc, v, cx, cy, hac, ⟨hx, rfl⟩ | ⟨_, rfl⟩⟩ | ⟨hc, _, e, v, ⟨hx, rfl⟩ | ⟨_, rfl⟩⟩ | ⟨hc, hh', hf⟩
      · have he := hempty hc
        refine ⟨fun h => ?_, fun h => (by cases h), fun h => (by cases h), fun _ => ⟨f, [], v, cx, cy, ?_, hac, Or.inr ⟨connectedFrame v (Conn.raise cx (asMilliseconds cfg.heartBeat maxHeartBeat)) (Conn.raise cy (asMilliseconds cfg.heartBeat maxHeartBeat)), [], ?_, ?_, ?_, by simp⟩⟩⟩
        · simp [Conn.emit] at h
        · simp [Conn.emit, he]
        · show untagged (c.out ++ _) = _
          rw [untagged_append, hp.silent he]; rfl
        · rfl
        · rfl
      · have he := hempty hc
        refine ⟨fun h => ?_, fun h => (by cases h), fun h => (by cases h), fun _ => ⟨f, [], v, cx, cy, ?_, hac, Or.inl ⟨rfl, hp.silent he⟩⟩⟩
        · simp [Conn.emit] at h
        · simp [Conn.emit, he]
      · have he := hempty hc
        refine ⟨fun h => ?_, hp.early, fun _ _ => Or.inr ⟨errorFrame cfg e f, ?_, rfl⟩, fun h => ?_⟩
        · simp at h
        · show untagged (c.out ++ _) = _
          rw [untagged_append, hp.silent he]; rfl
        · rw [hc] at h; cases h
      · have he := hempty hc
        refine ⟨fun h => ?_, hp.early, fun _ _ => Or.inl ⟨hp.silent he, rfl⟩, fun h => ?_⟩
        · simp at h
        · rw [hc] at h; cases h
      · obtain ⟨f0, rest, v, cx, cy, h1, h2, h3⟩ := hp.accepted hc
        have k := hh'.keeps
        have hcon : c'.connected = true := by cases hf <;> exact k.connected.trans hc
        have hhist : c'.hist = f0 :: (rest ++ [f]) := by
          have : c1.hist = c.hist ++ [f] := k.hist
          rw [h1] at this
          cases hf <;> exact this
        refine ⟨fun h => ?_, fun h => ?_, fun h => ?_, fun _ => ⟨f0, rest ++ [f], v, cx, cy, hhist, h2, ?_⟩⟩
        · rw [hhist] at h; cases h
        · rw [hcon] at h; cases h
        · rw [hcon] at h; cases h
        · rcases h3 with ⟨h3, h4⟩ | ⟨g, r', h4, h5, h6, h7⟩
          · exact Or.inl ⟨(hws h3).1, by rw [(hws h3).2]; exact h4⟩
          · right
            have hnew : ∃ new, c'.out = c.out ++ new ∧ ∀ w ∈ new, isConnected w = false := by
              have h1 : ∃ new, c1.out = c.out ++ new ∧ ∀ w ∈ new, isConnected w = false := by
                rcases hh'.out with ⟨h, _⟩ | ⟨v, _, h, _⟩ | ⟨h, _⟩
                · exact ⟨[], by simp [h], by simp⟩
                · refine ⟨_, h, ?_⟩
                  intro w hw; rw [List.mem_singleton] at hw; subst hw; rfl
                · exact ⟨[], by simp [h], by simp⟩
              obtain ⟨new, h1, h2⟩ := h1
              cases hf with
              | ok => exact ⟨new, h1, h2⟩
              | panic => exact ⟨new, h1, h2⟩
              | err e =>
                refine ⟨new ++ [⟨some (errorFrame cfg e f'), none⟩], ?_, ?_⟩
                · show c1.out ++ _ = _; rw [h1, List.append_assoc]
                · intro w hw
                  rcases List.mem_append.1 hw with hw | hw
                  · exact h2 w hw
                  · rw [List.mem_singleton] at hw; subst hw; rfl
              | errFail e => exact ⟨new, h1, h2⟩
            obtain ⟨new, hn1, hn2⟩ := hnew
            refine ⟨g, r' ++ untagged new, by rw [hn1, untagged_append, h4]; rfl, h5, h6, ?_⟩
            intro w hw
            rcases List.mem_append.1 hw with hw | hw
            · exact h7 w hw
            · exact hn2 w ((List.mem_filter.1 hw).1)
    | _ => cases hfr

theorem greeting_run {cfg : Config} {me : Nat} {es : List Conn.Ev} {c : Conn} (hq : ∀ e ∈ es, EnvOk e)
    (h : (Conn.init me).run cfg es = some c) : Greeting cfg c :=
  (run_inv (P := Greeting cfg) (fun _ _ _ hg hm _ hp hs => greeting_step hg hm hp hs) es c hq
    ⟨fun _ => rfl, fun _ => rfl, fun _ h => absurd rfl h, fun h => (by cases h)⟩ h).2.2

end Stomp.Server
