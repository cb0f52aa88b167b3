import Verif.Proofs.Server.Traces
import Verif.Proofs.Server.Received
import Verif.Spec.ServerTimer
/-! # A server connection with a clock: invariants -/
namespace Stomp.Server
open Stomp

/-! ## Steps of the connection -/

/-- A step after which the connection is up. -/
theorem up_step {cfg : Config} {c c' : Conn} {e : Conn.Ev} (hg : Gate cfg c) (h : Step cfg c e c') (hu : Spec.Up c') :
    Spec.Up c ∧ ((c'.writeTimeout = c.writeTimeout ∧ c'.connected = c.connected) ∨ (c.connected = false ∧ isFrame e = true ∧ ∃ w, c'.out = c.out ++ [w])) := by
  obtain ⟨hs, hw, hp⟩ := hu
  have sel : c.atSelect = true → c.stage = .run ∧ Out.panic ∉ c.outbox := by
    intro ha; obtain ⟨h1, h2⟩ := atSelect_run ha; exact ⟨h1, by rw [h2]; simp⟩
  cases h with
  | frame ok1 ok2 f q c1 _ f' r ha hq hsf hfin =>
    obtain ⟨h1, h2⟩ := sel ha
    rcases frame_cases hg hsf hfin with ⟨hcn, v, cx, cy, _, ⟨hwf, rfl⟩ | ⟨_, rfl⟩⟩ | ⟨_, _, e, v, ⟨_, rfl⟩ | ⟨_, rfl⟩⟩ | ⟨_, hh, hf⟩
    · exact ⟨⟨h1, hwf, h2⟩, Or.inr ⟨hcn, rfl, _, rfl⟩⟩
    · cases hw
    · cases hs
    · cases hs
    · have hk := hh.keeps
      have key : c1.wfail = false → c.wfail = false := by
        intro h3
        rcases hh.out with ⟨_, h4, _⟩ | ⟨_, _, _, h4, _⟩ | ⟨_, h4⟩
        · rw [← h3, h4]
        · rw [← h3, h4]
        · rw [h4] at h3; cases h3
      cases hf with
      | ok => exact ⟨⟨h1, key hw, h2⟩, Or.inl ⟨hk.writeTimeout, hk.connected⟩⟩
      | panic => exact absurd (List.mem_append.2 (Or.inr (List.mem_singleton.2 rfl))) hp
      | err => cases hs
      | errFail => cases hs
  | recv => exact ⟨⟨hs, hw, hp⟩, Or.inl ⟨rfl, rfl⟩⟩
  | readErr => exact ⟨⟨hs, hw, hp⟩, Or.inl ⟨rfl, rfl⟩⟩
  | readClosed => cases hs
  | wrOk m w ha => exact ⟨⟨(sel ha).1, hw, (sel ha).2⟩, Or.inl ⟨rfl, rfl⟩⟩
  | wrErr => cases hs
  | wrFail => cases hs
  | subGone ok i l ha => exact ⟨⟨(sel ha).1, hw, (sel ha).2⟩, Or.inl ⟨rfl, rfl⟩⟩
  | subNil => exact absurd (List.mem_append.2 (Or.inr (List.mem_singleton.2 rfl))) hp
  | subFail => cases hs
  | subAuto i l j m ha => exact ⟨⟨(sel ha).1, hw, (sel ha).2⟩, Or.inl ⟨rfl, rfl⟩⟩
  | subPanic => exact absurd (List.mem_append.2 (Or.inr (List.mem_singleton.2 rfl))) hp
  | subAdd i l j m ha => exact ⟨⟨(sel ha).1, hw, (sel ha).2⟩, Or.inl ⟨rfl, rfl⟩⟩
  | timerOk ha => exact ⟨⟨(sel ha).1, hw, (sel ha).2⟩, Or.inl ⟨rfl, rfl⟩⟩
  | timerFail => cases hs
  | discard => exact ⟨⟨hs, hw, hp⟩, Or.inl ⟨rfl, rfl⟩⟩
  | discardEnd st ho hw' hst =>
    dsimp only at hs; subst hs
    rcases hst with ⟨_, h⟩ | ⟨_, h⟩ | ⟨_, h⟩ <;> cases h
  | acklist => cases hs
  | drain i l ho hst =>
    have hs' : c.stage = .run := hs
    rw [hs'] at hst; rcases hst with h | h <;> cases h
  | drainEnd st ho hl hst =>
    dsimp only at hs; subst hs
    rcases hst with ⟨_, h⟩ | ⟨_, h⟩ <;> cases h
  | announce => cases hs
  | unsub => cases hs
  | flushed r o ho => exact ⟨⟨hs, hw, fun h => (by rw [ho] at h; rcases List.mem_cons.1 h with h | h; (· cases h); exact hp h)⟩, Or.inl ⟨rfl, rfl⟩⟩
  | setFrame => exact ⟨⟨hs, hw, hp⟩, Or.inl ⟨rfl, rfl⟩⟩
  | setInList => exact ⟨⟨hs, hw, hp⟩, Or.inl ⟨rfl, rfl⟩⟩
  | pushSub => exact ⟨⟨hs, hw, hp⟩, Or.inl ⟨rfl, rfl⟩⟩
  | pushTopic => exact ⟨⟨hs, hw, hp⟩, Or.inl ⟨rfl, rfl⟩⟩

/-- The cases that stop the timer. -/
def resets : Conn.Ev → Bool
  | .wr _ => true
  | .sub _ => true
  | .timer _ => true
  | _ => false

/-- They write something, or take a message whose subscription has ended. -/
theorem reset_step {cfg : Config} {c c' : Conn} {e : Conn.Ev} (h : Step cfg c e c') (hu : Spec.Up c') (hr : resets e = true) :
    TConn.goneIn c e = [.gone] ∨ ∃ w, c'.out = c.out ++ [w] := by
  obtain ⟨hs, hw, hp⟩ := hu
  cases h with
  | wrOk => exact Or.inr ⟨_, rfl⟩
  | wrErr => exact Or.inr ⟨_, rfl⟩
  | wrFail => cases hs
  | subGone ok i l ha hl hg =>
    left
    unfold TConn.goneIn
    dsimp only
    rw [hl]
    dsimp only
    rw [if_pos hg]
  | subNil => exact absurd (List.mem_append.2 (Or.inr (List.mem_singleton.2 rfl))) hp
  | subFail => cases hs
  | subAuto => exact Or.inr ⟨_, rfl⟩
  | subPanic => exact Or.inr ⟨_, rfl⟩
  | subAdd => exact Or.inr ⟨_, rfl⟩
  | timerOk => exact Or.inr ⟨_, rfl⟩
  | timerFail => cases hs
  | _ => cases hr

/-- No step changes the write timeout but the handshake. -/
theorem writeTimeout_step {cfg : Config} {c c' : Conn} {e : Conn.Ev} (hg : Gate cfg c) (h : Step cfg c e c') (hc : c.connected = true) :
    c'.writeTimeout = c.writeTimeout ∧ c'.connected = true := by
  cases h with
  | frame ok1 ok2 f q c1 _ f' r ha hq hsf hfin =>
    rcases frame_cases hg hsf hfin with ⟨hcn, _⟩ | ⟨hcn, _⟩ | ⟨_, hh, hf⟩
    · rw [hcn] at hc; cases hc
    · rw [hcn] at hc; cases hc
    · have hk := hh.keeps
      have h1 := hk.writeTimeout
      have h2 := hk.connected.trans hc
      cases hf <;> exact ⟨h1, h2⟩
  | _ => exact ⟨rfl, hc⟩

/-! ## Steps with time -/

theorem tconn_cases {cfg : Config} {x x' : TConn} {e : TConn.Ev} (h : x.step cfg e = some x') :
    x'.conn = x.conn ∨ ∃ ce, x.conn.step cfg ce = some x'.conn ∧ (e = .step ce ∨ (∃ f, e = .push ∧ x.pending = some f ∧ ce = .recv f) ∨ ce = .readErr) := by
  cases e with
  | delay d => simp only [TConn.step, Option.some.injEq] at h; subst h; exact Or.inl rfl
  | bytes => simp only [TConn.step] at h; split at h <;> simp only [Option.some.injEq, reduceCtorEq] at h; subst h; exact Or.inl rfl
  | item f =>
    simp only [TConn.step] at h
    split at h
    · split at h <;> simp only [Option.some.injEq] at h <;> subst h <;> exact Or.inl rfl
    · cases h
  | push =>
    simp only [TConn.step] at h
    split at h
    · cases h
    · rename_i f hf
      obtain ⟨c, h1, h2⟩ := Option.map_eq_some_iff.1 h
      subst h2; exact Or.inr ⟨_, h1, Or.inr (Or.inl ⟨f, rfl, hf, rfl⟩)⟩
  | expire =>
    simp only [TConn.step] at h
    split at h
    · obtain ⟨c, h1, h2⟩ := Option.map_eq_some_iff.1 h
      subst h2; exact Or.inr ⟨_, h1, Or.inr (Or.inr rfl)⟩
    · cases h
  | fail =>
    simp only [TConn.step] at h
    split at h
    · obtain ⟨c, h1, h2⟩ := Option.map_eq_some_iff.1 h
      subst h2; exact Or.inr ⟨_, h1, Or.inr (Or.inr rfl)⟩
    · cases h
  | step e =>
    simp only [TConn.step] at h
    split at h
    · rename_i t c h1 h2
      injection h with h
      refine Or.inr ⟨e, ?_, Or.inl rfl⟩
      rw [h2, ← h]
      unfold TConn.arm
      split <;> rfl
    · cases h

theorem arm_conn (x : TConn) : x.arm.conn = x.conn := by unfold TConn.arm; split <;> rfl
theorem arm_now (x : TConn) : x.arm.now = x.now := by unfold TConn.arm; split <;> rfl
theorem arm_late (x : TConn) : x.arm.late = x.late := by unfold TConn.arm; split <;> rfl
theorem arm_log (x : TConn) : x.arm.log = x.log := by unfold TConn.arm; split <;> rfl
theorem arm_rl (x : TConn) : x.arm.rl = x.rl := by unfold TConn.arm; split <;> rfl
theorem arm_deadline (x : TConn) : x.arm.deadline = x.deadline := by unfold TConn.arm; split <;> rfl
theorem arm_pending (x : TConn) : x.arm.pending = x.pending := by unfold TConn.arm; split <;> rfl

/-- The messages the environment hands over are MESSAGE frames. -/
def TEnvOk (es : List TConn.Ev) : Prop := ∀ e, .step e ∈ es → EnvOk e

/-- The connection of a timed execution has an execution. -/
theorem tconn_run {cfg : Config} {es : List TConn.Ev} {x y : TConn} (h : x.run cfg es = some y) (he : TEnvOk es) :
    ∃ ces, x.conn.run cfg ces = some y.conn ∧ ∀ e ∈ ces, EnvOk e := by
  induction es generalizing x with
  | nil => simp only [TConn.run, Option.some.injEq] at h; subst h; exact ⟨[], rfl, by simp⟩
  | cons e es ih =>
    simp only [TConn.run] at h
    split at h
    · cases h
    · rename_i x1 h1
      obtain ⟨ces, h2, h3⟩ := ih h (fun ev hev => he ev (List.mem_cons_of_mem _ hev))
      rcases tconn_cases h1 with h4 | ⟨ce, h4, h5⟩
      · exact ⟨ces, by rw [← h4]; exact h2, h3⟩
      · refine ⟨ce :: ces, by simp only [Conn.run, h4]; exact h2, ?_⟩
        intro ev hev
        rcases List.mem_cons.1 hev with rfl | hev
        · rcases h5 with rfl | ⟨f, _, _, rfl⟩ | rfl
          · exact he _ List.mem_cons_self
          · trivial
          · trivial
        · exact h3 ev hev

theorem connRun_append {cfg : Config} (es es' : List Conn.Ev) (c c1 : Conn) (h : c.run cfg es = some c1) : c.run cfg (es ++ es') = c1.run cfg es' := by
  induction es generalizing c with
  | nil => simp only [Conn.run, Option.some.injEq] at h; subst h; rfl
  | cons e es ih =>
    simp only [Conn.run, List.cons_append] at h ⊢
    split at h
    · cases h
    · rename_i c2 h2
      exact ih c2 h

theorem tconn_induct {cfg : Config} {P : TConn → Prop} (hstep : ∀ x e x', Gate cfg x.conn → Greeting cfg x.conn → P x → x.step cfg e = some x' → P x')
    {me : Nat} {es : List TConn.Ev} {y : TConn} (he : TEnvOk es) (h0 : P (TConn.init me)) (h : (TConn.init me).run cfg es = some y) : P y := by
  have key : ∀ (es : List TConn.Ev) (x : TConn) (pre : List Conn.Ev), (Conn.init me).run cfg pre = some x.conn → (∀ e ∈ pre, EnvOk e) → TEnvOk es → P x → x.run cfg es = some y → P y := by
    intro es
    induction es with
    | nil => intro x _ _ _ _ hx h; simp only [TConn.run, Option.some.injEq] at h; subst h; exact hx
    | cons e es ih =>
      intro x pre hr hpre he hx h
      simp only [TConn.run] at h
      split at h
      · cases h
      · rename_i x1 h1
        obtain ⟨ces, h2, h3⟩ := tconn_run (es := [e]) (y := x1) (by rw [TConn.run, h1]; rfl) (fun ev hev => he ev (by rw [List.mem_singleton] at hev; rw [hev]; exact List.mem_cons_self))
        refine ih x1 (pre ++ ces) ?_ ?_ (fun ev hev => he ev (List.mem_cons_of_mem _ hev)) ?_ h
        · rw [connRun_append pre ces _ _ hr]; exact h2
        · intro ev hev
          rcases List.mem_append.1 hev with hev | hev
          · exact hpre ev hev
          · exact h3 ev hev
        · exact hstep x e x1 (gate_run cfg me pre _ hr) (greeting_run hpre hr) hx h1
  exact key es _ [] rfl (by simp) he h0 h

/-! ## The timer of `processLoop` -/

/-- The timer is set only if there is a write timeout, and then always while `processLoop` waits. -/
structure TimerInv (x : TConn) : Prop where
  set_ : x.timer ≠ none → 0 < x.conn.writeTimeout
  armed : x.conn.atSelect = true → 0 < x.conn.writeTimeout → x.timer ≠ none

/-- A timer that is set fires by `b + w`; otherwise it is not later than `b`. -/
def Within (now b w : Nat) : Option Nat → Prop
  | some d => d ≤ b + w
  | none => now ≤ b

/-- The time since the last transmission, or message of an ended subscription, counted without what the loop has been late. -/
def SentInv (x : TConn) : Prop :=
  Spec.Up x.conn → 0 < x.conn.writeTimeout →
    ∃ t l o, (t, l, o) ∈ x.log ∧ (o = .gone ∨ ∃ w, o = .wrote w) ∧ l ≤ x.late ∧ x.now ≤ t + Spec.ms x.conn.writeTimeout + (x.late - l) ∧
      Within x.now (t + (x.late - l)) (Spec.ms x.conn.writeTimeout) x.timer

theorem arm_timerInv {x : TConn} (h : x.timer ≠ none → 0 < x.conn.writeTimeout) : TimerInv x.arm := by
  constructor
  · rw [arm_conn]
    unfold TConn.arm
    split
    · rename_i h1; exact fun _ => h1.2.1
    · exact h
  · rw [arm_conn]
    intro h1 h2
    unfold TConn.arm
    split
    · simp
    · rename_i h3
      intro h4; exact h3 ⟨h1, h2, h4⟩

theorem arm_sent {x : TConn} (h : SentInv x) : SentInv x.arm := by
  intro hu hw
  rw [arm_conn] at hu hw
  obtain ⟨t, l, o, h1, h2, h3, h4, h5⟩ := h hu hw
  refine ⟨t, l, o, by rw [arm_log]; exact h1, h2, by rw [arm_late]; exact h3, by rw [arm_now, arm_late, arm_conn]; exact h4, ?_⟩
  rw [arm_now, arm_late, arm_conn]
  by_cases hc : x.conn.atSelect ∧ 0 < x.conn.writeTimeout ∧ x.timer = none
  · rw [show x.arm = { x with timer := some (x.now + x.conn.writeTimeout * 1000000) } from if_pos hc]
    rw [hc.2.2] at h5
    simp only [Within] at h5 ⊢
    unfold Spec.ms
    omega
  · rw [show x.arm = x from if_neg hc]; exact h5

theorem timer_step {cfg : Config} {x x' : TConn} {e : TConn.Ev} (hg : Gate cfg x.conn) (hgr : Greeting cfg x.conn) (hi : TimerInv x ∧ SentInv x) (h : x.step cfg e = some x') :
    TimerInv x' ∧ SentInv x' := by
  obtain ⟨ht, hs⟩ := hi
  -- steps of `readLoop`
  have quiet : ∀ (y : TConn), y.timer = x.timer → y.now = x.now → y.late = x.late → (∃ l, y.log = x.log ++ l) →
      (y.conn = x.conn ∨ (∃ q, y.conn = { x.conn with inq := q }) ∨ y.conn = { x.conn with readDone := true }) → TimerInv y ∧ SentInv y := by
    intro y h1 h2 h3 ⟨l, h4⟩ h5
    have hw : y.conn.writeTimeout = x.conn.writeTimeout := by rcases h5 with h5 | ⟨q, h5⟩ | h5 <;> rw [h5]
    have ha : y.conn.atSelect = x.conn.atSelect := by rcases h5 with h5 | ⟨q, h5⟩ | h5 <;> rw [h5] <;> rfl
    have hu : Spec.Up y.conn → Spec.Up x.conn := by
      rintro ⟨u1, u2, u3⟩
      rcases h5 with h5 | ⟨q, h5⟩ | h5 <;> rw [h5] at u1 u2 u3 <;> exact ⟨u1, u2, u3⟩
    refine ⟨⟨by rw [h1, hw]; exact ht.set_, by rw [h1, hw, ha]; exact ht.armed⟩, ?_⟩
    intro hu' hw'
    obtain ⟨t, l', o, h6, h7⟩ := hs (hu hu') (by rw [← hw]; exact hw')
    exact ⟨t, l', o, by rw [h4]; exact List.mem_append.2 (Or.inl h6), by rw [h1, h2, h3, hw]; exact h7⟩
  cases e with
  | delay d =>
    simp only [TConn.step, Option.some.injEq] at h; subst h
    refine ⟨⟨ht.set_, ht.armed⟩, ?_⟩
    intro hu hw
    obtain ⟨t, l, o, h1, h2, h3, h4, h5⟩ := hs hu hw
    dsimp only at hw ⊢
    by_cases hid : x.idle d = true
    · rw [if_pos hid]
      refine ⟨t, l, o, h1, h2, h3, ?_⟩
      simp only [TConn.idle, decide_eq_true_eq] at hid
      cases htm : x.timer with
      | none => exact absurd htm (ht.armed hid.1 hw)
      | some dl =>
        rw [htm] at h5
        have := hid.2.2.2.2.2 dl htm
        simp only [Within] at h5 ⊢
        exact ⟨by omega, by omega⟩
    · rw [if_neg hid]
      refine ⟨t, l, o, h1, h2, by omega, by omega, ?_⟩
      cases htm : x.timer with
      | none => rw [htm] at h5; simp only [Within] at h5 ⊢; omega
      | some dl => rw [htm] at h5; simp only [Within] at h5 ⊢; omega
  | bytes =>
    simp only [TConn.step] at h; split at h <;> simp only [Option.some.injEq, reduceCtorEq] at h
    subst h; exact quiet _ rfl rfl rfl ⟨_, rfl⟩ (Or.inl rfl)
  | item f =>
    simp only [TConn.step] at h
    split at h
    · split at h <;> simp only [Option.some.injEq] at h <;> subst h <;> exact quiet _ rfl rfl rfl ⟨_, rfl⟩ (Or.inl rfl)
    · cases h
  | push =>
    simp only [TConn.step] at h
    split at h
    · cases h
    · obtain ⟨c, h1, h2⟩ := Option.map_eq_some_iff.1 h
      subst h2
      refine quiet _ rfl rfl rfl ⟨_, rfl⟩ (Or.inr (Or.inl ?_))
      have h3 := step_of _ _ _ _ h1
      cases h3; exact ⟨_, rfl⟩
  | expire =>
    simp only [TConn.step] at h
    split at h
    · obtain ⟨c, h1, h2⟩ := Option.map_eq_some_iff.1 h
      subst h2
      refine quiet _ rfl rfl rfl ⟨[], (List.append_nil _).symm⟩ (Or.inr (Or.inr ?_))
      have h3 := step_of _ _ _ _ h1
      cases h3; rfl
    · cases h
  | fail =>
    simp only [TConn.step] at h
    split at h
    · obtain ⟨c, h1, h2⟩ := Option.map_eq_some_iff.1 h
      subst h2
      refine quiet _ rfl rfl rfl ⟨[], (List.append_nil _).symm⟩ (Or.inr (Or.inr ?_))
      have h3 := step_of _ _ _ _ h1
      cases h3; rfl
    · cases h
  | step e =>
    simp only [TConn.step] at h
    split at h
    · rename_i tm c h1 h2
      injection h with h; subst h
      have hst := step_of _ _ _ _ h2
      have htm : tm ≠ none → tm = x.timer ∧ resets e = false := by
        intro hn
        cases e <;> simp only [TConn.timerAfter, Option.some.injEq, reduceCtorEq] at h1 <;> first | exact ⟨h1.symm, rfl⟩ | exact absurd h1.symm hn | (split at h1 <;> simp only [Option.some.injEq, reduceCtorEq] at h1; exact absurd h1.symm hn)
      have htm' : resets e = false → tm = x.timer := by
        intro hn
        cases e <;> simp only [TConn.timerAfter, Option.some.injEq, reduceCtorEq] at h1 <;> first | exact h1.symm | cases hn
      refine ⟨arm_timerInv ?_, arm_sent ?_⟩
      · intro hn
        have h3 := ht.set_ (by rw [← (htm hn).1]; exact hn)
        have h4 : x.conn.connected = true := by
          cases hcc : x.conn.connected with
          | true => rfl
          | false => rw [hgr.early hcc] at h3; exact absurd h3 (by simp)
        show 0 < c.writeTimeout
        rw [(writeTimeout_step hg hst h4).1]; exact h3
      · intro hu hw
        have hu' : Spec.Up c := hu
        obtain ⟨hu0, hk⟩ := up_step hg hst hu'
        have fresh : (∃ o, (o = TObs.gone ∨ ∃ w, o = .wrote w) ∧ o ∈ TConn.goneIn x.conn e ++ (c.out.drop x.conn.out.length).map TObs.wrote) → tm = none →
            ∃ t l o, (t, l, o) ∈ x.log ++ (TConn.goneIn x.conn e ++ (c.out.drop x.conn.out.length).map TObs.wrote).map (fun o => (x.now, x.late, o)) ∧ (o = TObs.gone ∨ ∃ w, o = .wrote w) ∧ l ≤ x.late ∧
              x.now ≤ t + Spec.ms c.writeTimeout + (x.late - l) ∧ Within x.now (t + (x.late - l)) (Spec.ms c.writeTimeout) tm := by
          rintro ⟨o, ho, hm⟩ hn
          subst hn
          refine ⟨x.now, x.late, o, List.mem_append.2 (Or.inr (List.mem_map.2 ⟨o, hm, rfl⟩)), ho, Nat.le_refl _, by omega, ?_⟩
          simp only [Within]; omega
        have wrote : (∃ w, c.out = x.conn.out ++ [w]) → ∃ o, (o = TObs.gone ∨ ∃ w, o = .wrote w) ∧ o ∈ TConn.goneIn x.conn e ++ (c.out.drop x.conn.out.length).map TObs.wrote := by
          rintro ⟨w, hw⟩
          refine ⟨.wrote w, Or.inr ⟨w, rfl⟩, List.mem_append.2 (Or.inr ?_)⟩
          rw [hw, List.drop_left]; simp
        by_cases hr : resets e = true
        · refine fresh ?_ (Classical.byContradiction fun hn => ?_)
          · rcases reset_step hst hu' hr with h3 | h3
            · exact ⟨.gone, Or.inl rfl, by rw [h3]; simp⟩
            · exact wrote h3
          · rw [(htm hn).2] at hr; cases hr
        · have hr : resets e = false := by simpa using hr
          rcases hk with ⟨hk1, hk2⟩ | ⟨hk1, hk2, hk3⟩
          · obtain ⟨t, l, o, h3, h4⟩ := hs hu0 (by rw [← hk1]; exact hw)
            refine ⟨t, l, o, List.mem_append.2 (Or.inl h3), ?_⟩
            rw [htm' hr]
            dsimp only
            rw [hk1]; exact h4
          · refine fresh (wrote hk3) ?_
            rw [htm' hr]
            apply Classical.byContradiction
            intro hn
            have h3 := ht.set_ hn
            rw [hgr.early hk1] at h3
            exact absurd h3 (by simp)
    · cases h

theorem timer_run {cfg : Config} {me : Nat} {es : List TConn.Ev} {x : TConn} (he : TEnvOk es) (h : (TConn.init me).run cfg es = some x) : TimerInv x ∧ SentInv x :=
  tconn_induct (P := fun x => TimerInv x ∧ SentInv x) (fun _ _ _ hg hgr hi h => timer_step hg hgr hi h) he
    ⟨⟨fun h => absurd rfl h, fun _ h => absurd h (Nat.lt_irrefl 0)⟩, fun _ h => absurd h (Nat.lt_irrefl 0)⟩ h

/-! ## The announcement -/

/-- What happens to the frames handled and to the handshake in one step. -/
theorem hist_grow {cfg : Config} {c c' : Conn} {e : Conn.Ev} (hg : Gate cfg c) (h : Step cfg c e c') : ∃ l, c'.hist = c.hist ++ l := by
  cases h with
  | frame ok1 ok2 f q c1 _ f' r ha hq hsf hfin =>
    rcases frame_cases hg hsf hfin with ⟨hcn, v, cx, cy, _, ⟨hwf, rfl⟩ | ⟨_, rfl⟩⟩ | ⟨_, _, e, v, ⟨_, rfl⟩ | ⟨_, rfl⟩⟩ | ⟨_, hh, hf⟩
    · exact ⟨_, rfl⟩
    · exact ⟨_, rfl⟩
    · exact ⟨_, rfl⟩
    · exact ⟨_, rfl⟩
    · have hk := hh.keeps.hist
      cases hf <;> exact ⟨_, hk⟩
  | _ => exact ⟨[], (List.append_nil _).symm⟩

/-- A CONNECTED frame that was written is the answer to the first frame, and announces the write timeout. -/
def Told (cfg : Config) (c : Conn) : Prop :=
  ∀ w ∈ c.out, isConnected w = true → c.connected = true ∧ ∃ f rest v cx cy, c.hist = f :: rest ∧ getHeartBeat f = .ok (cx, cy) ∧
    w.frame = some (connectedFrame v (Conn.raise cx (asMilliseconds cfg.heartBeat maxHeartBeat)) c.writeTimeout) ∧
    c.writeTimeout = Conn.raise cy (asMilliseconds cfg.heartBeat maxHeartBeat)

theorem told_step {cfg : Config} {c c' : Conn} {e : Conn.Ev} (hg : Gate cfg c) (hm : MsgsOk c) (hi : Told cfg c) (h : Step cfg c e c') : Told cfg c' := by
  -- writes that were there before
  have old : ∀ w ∈ c.out, isConnected w = true → c'.connected = true ∧ ∃ f rest v cx cy, c'.hist = f :: rest ∧ getHeartBeat f = .ok (cx, cy) ∧
      w.frame = some (connectedFrame v (Conn.raise cx (asMilliseconds cfg.heartBeat maxHeartBeat)) c'.writeTimeout) ∧
      c'.writeTimeout = Conn.raise cy (asMilliseconds cfg.heartBeat maxHeartBeat) := by
    intro w hw hc
    obtain ⟨h1, f, rest, v, cx, cy, h2, h3, h4, h4'⟩ := hi w hw hc
    obtain ⟨l, hl⟩ := hist_grow hg h
    obtain ⟨h5, h6⟩ := writeTimeout_step hg h h1
    exact ⟨h6, f, rest ++ l, v, cx, cy, by rw [hl, h2]; rfl, h3, by rw [h5]; exact h4, by rw [h5]; exact h4'⟩
  intro w hw hc
  by_cases hn : w ∈ c.out
  · exact old w hn hc
  have other : ∀ {g : Frame}, w.frame = some g → g.command ≠ b!"CONNECTED" → False := by
    intro g h1 h2
    unfold isConnected at hc
    rw [h1] at hc
    exact h2 (by simpa using hc)
  by_cases hf : isFrame e = true
  · cases h with
    | frame ok1 ok2 f q c1 _ f' r ha hq hsf hfin =>
      rcases frame_cases hg hsf hfin with ⟨hcn, v, cx, cy, hacc, ⟨hwf, rfl⟩ | ⟨_, rfl⟩⟩ | ⟨_, _, e, v, ⟨_, rfl⟩ | ⟨_, rfl⟩⟩ | ⟨_, hh, hf⟩
      · have hw' : w = ⟨some (connectedFrame v (Conn.raise cx (asMilliseconds cfg.heartBeat maxHeartBeat)) (Conn.raise cy (asMilliseconds cfg.heartBeat maxHeartBeat))), none⟩ := by
          rcases List.mem_append.1 hw with hw | hw
          · exact absurd hw hn
          · exact List.mem_singleton.1 hw
        have hh : c.hist = [] := by
          obtain ⟨_, _, _, _, _, _, _, h8⟩ := hg.closed hcn
          rcases h8 with h8 | ⟨_, h8⟩
          · exact h8
          · exact absurd (atSelect_run ha).1 h8
        refine ⟨rfl, f, [], v, cx, cy, ?_, hacc.heartBeat, by rw [hw']; rfl, rfl⟩
        show c.hist ++ [f] = _
        rw [hh]; rfl
      · exact absurd hw hn
      · exfalso
        rcases List.mem_append.1 hw with hw | hw
        · exact hn hw
        · rw [List.mem_singleton] at hw; subst hw
          exact other rfl (show b!"ERROR" ≠ b!"CONNECTED" by decide)
      · exact absurd hw hn
      · exfalso
        have h1 : w ∈ c1.out → False := by
          intro hw
          rcases hh.out with ⟨h2, _⟩ | ⟨v, _, h2, _⟩ | ⟨h2, _⟩
          · rw [h2] at hw; exact hn hw
          · rw [h2] at hw
            rcases List.mem_append.1 hw with hw | hw
            · exact hn hw
            · rw [List.mem_singleton] at hw; subst hw
              exact other rfl (show b!"RECEIPT" ≠ b!"CONNECTED" by decide)
          · rw [h2] at hw; exact hn hw
        cases hf with
        | ok => exact h1 hw
        | panic => exact h1 hw
        | err e =>
          rcases List.mem_append.1 hw with hw | hw
          · exact h1 hw
          · rw [List.mem_singleton] at hw; subst hw
            exact other rfl (show b!"ERROR" ≠ b!"CONNECTED" by decide)
        | errFail e => exact h1 hw
    | _ => cases hf
  · exfalso
    rcases out_step hg hm h with ⟨h1, _⟩ | ⟨h1, _⟩ | ⟨_, _, h1, _⟩ | ⟨_, _, m, a, hmc, _, h1⟩
    · rw [h1] at hw; exact hn hw
    · exact hf h1
    · rw [h1] at hw
      rcases List.mem_append.1 hw with hw | hw
      · exact hn hw
      · rw [List.mem_singleton] at hw; subst hw; cases hc
    · rw [h1] at hw
      rcases List.mem_append.1 hw with hw | hw
      · exact hn hw
      · rw [List.mem_singleton] at hw; subst hw
        refine other rfl ?_
        rw [show (m.alloc c.lastMsgId a).frame.command = m.frame.command from allocFrame_command _ _ _, hmc]; decide

theorem comma_unique {u u' v v' : Bytes} (hu : ∀ c ∈ u, 48 ≤ c.toNat) (hu' : ∀ c ∈ u', 48 ≤ c.toNat) (h : u ++ b!"," ++ v = u' ++ b!"," ++ v') : u = u' ∧ v = v' := by
  have hc : ∀ c : UInt8, 48 ≤ c.toNat → c ≠ 44 := by intro c h1 h2; rw [h2] at h1; exact absurd h1 (by decide)
  rw [List.append_assoc, List.append_assoc] at h
  replace h : u ++ 44 :: v = u' ++ 44 :: v' := h
  induction u generalizing u' with
  | nil =>
    cases u' with
    | nil => injection h with _ h; exact ⟨rfl, h⟩
    | cons c u' => injection h with h _; exact absurd h.symm (hc c (hu' c List.mem_cons_self))
  | cons c u ih =>
    cases u' with
    | nil => injection h with h _; exact absurd h (hc c (hu c List.mem_cons_self))
    | cons c' u' =>
      injection h with h1 h2
      obtain ⟨h3, h4⟩ := ih (fun c h => hu c (List.mem_cons_of_mem _ h)) (fun c h => hu' c (List.mem_cons_of_mem _ h)) h2
      exact ⟨by rw [h1, h3], h4⟩

/-- What is announced. -/
theorem announced_eq {cfg : Config} {c : Conn} {a b : Nat} (hi : Told cfg c) (h : Spec.Announced c a b) :
    c.connected = true ∧ a = c.writeTimeout ∧ ∃ f rest cx cy, c.hist = f :: rest ∧ getHeartBeat f = .ok (cx, cy) ∧ b = Conn.raise cx (asMilliseconds cfg.heartBeat maxHeartBeat) ∧
      a = Conn.raise cy (asMilliseconds cfg.heartBeat maxHeartBeat) := by
  obtain ⟨w, hw, g, hg, hc, u, v, h1, h2, h3⟩ := h
  obtain ⟨h4, f, rest, v', cx, cy, h5, h6, h7, h7'⟩ := hi w hw (by unfold isConnected; rw [hg]; exact decide_eq_true hc)
  rw [hg] at h7; injection h7 with h7; subst h7
  have h8 : fmtUint c.writeTimeout ++ b!"," ++ fmtUint (Conn.raise cx (asMilliseconds cfg.heartBeat maxHeartBeat)) = u ++ b!"," ++ v := by
    injection h1
  have n1 := fmtUint_numeral c.writeTimeout
  have n2 := fmtUint_numeral (Conn.raise cx (asMilliseconds cfg.heartBeat maxHeartBeat))
  obtain ⟨h9, h10⟩ := comma_unique (fun x hx => (n1.2.1 x hx).1) (fun x hx => (h2.2.1 x hx).1) h8
  have ha : a = c.writeTimeout := by rw [← h2.2.2, ← h9]; exact n1.2.2
  refine ⟨h4, ha, f, rest, cx, cy, h5, h6, ?_, by rw [ha, h7']⟩
  rw [← h3.2.2, ← h10]; exact n2.2.2

theorem told_conn {cfg : Config} {me : Nat} {es : List Conn.Ev} {c : Conn} (he : ∀ e ∈ es, EnvOk e) (h : (Conn.init me).run cfg es = some c) : Told cfg c :=
  (run_inv (P := Told cfg) (fun _ _ _ hg hm _ hp hs => told_step hg hm hp hs) es _ he (by intro w hw; cases hw) h).2.2

theorem told_run {cfg : Config} {me : Nat} {es : List TConn.Ev} {x : TConn} (he : TEnvOk es) (h : (TConn.init me).run cfg es = some x) : Told cfg x.conn := by
  obtain ⟨ces, h1, h2⟩ := tconn_run h he
  exact (run_inv (P := Told cfg) (fun _ _ _ hg hm _ hp hs => told_step hg hm hp hs) ces _ h2 (by intro w hw; cases hw) h1).2.2

/-! ## The deadlines of `readLoop` -/

theorem rl_fold_done (cfg : Config) (l : List Frame) (r : ReadLoop) (h : r.expectingConnect = false) : l.foldl (ReadLoop.frame cfg) r = r := by
  induction l with
  | nil => rfl
  | cons f l ih => rw [List.foldl_cons, show r.frame cfg f = r by unfold ReadLoop.frame; rw [h]; rfl]; exact ih

theorem readDone_step {cfg : Config} {c c' : Conn} {e : Conn.Ev} (hg : Gate cfg c) (h : Step cfg c e c') (hn : e ≠ .readErr) : c'.readDone = c.readDone := by
  cases h with
  | readErr => exact absurd rfl hn
  | frame ok1 ok2 f q c1 _ f' r ha hq hsf hfin =>
    rcases frame_cases hg hsf hfin with ⟨hcn, v, cx, cy, _, ⟨hwf, rfl⟩ | ⟨_, rfl⟩⟩ | ⟨_, _, e, v, ⟨_, rfl⟩ | ⟨_, rfl⟩⟩ | ⟨_, hh, hf⟩
    · rfl
    · rfl
    · rfl
    · rfl
    · have hk := hh.keeps.readDone
      cases hf <;> exact hk
  | _ => rfl

/-- The variables of `readLoop` are determined by the frames read; the deadline by the last progress. -/
structure DeadInv (cfg : Config) (x : TConn) : Prop where
  rl : x.rl = (x.conn.hist ++ x.conn.inq ++ x.pending.toList).foldl (ReadLoop.frame cfg) {}
  past : ∀ t l o, (t, l, o) ∈ x.log → t ≤ x.now
  deadline : x.reading = true → (x.rl.readTimeout = 0 ∧ x.deadline = none) ∨
    (0 < x.rl.readTimeout ∧ ∃ t l o, (t, l, o) ∈ x.log ∧ Spec.Progress o ∧ x.deadline = some (t + 2 * Spec.ms x.rl.readTimeout) ∧
      ∀ t' l' o', (t', l', o') ∈ x.log → Spec.Progress o' → t' ≤ t)

theorem setDeadline_eq (x : TConn) : (x.rl.readTimeout = 0 ∧ x.setDeadline.deadline = none) ∨
    (0 < x.rl.readTimeout ∧ x.setDeadline.deadline = some (x.now + 2 * Spec.ms x.rl.readTimeout)) := by
  unfold TConn.setDeadline ReadLoop.deadline
  by_cases h : x.rl.readTimeout = 0
  · left; rw [if_pos h]; exact ⟨h, rfl⟩
  · right
    rw [if_neg h]
    refine ⟨by omega, ?_⟩
    simp only [Option.map_some, Option.some.injEq, millisecond, Spec.ms]
    omega

theorem reading_iff (x : TConn) : x.reading = true ↔ x.conn.readDone = false ∧ x.pending = none := by
  unfold TConn.reading; simp

theorem dead_step {cfg : Config} {x x' : TConn} {e : TConn.Ev} (hg : Gate cfg x.conn) (hi : DeadInv cfg x) (h : x.step cfg e = some x') : DeadInv cfg x' := by
  obtain ⟨h1, h2, h3⟩ := hi
  have past : ∀ (l : List TObs) t l' o, (t, l', o) ∈ x.log ++ l.map (fun o => (x.now, x.late, o)) → t ≤ x.now := by
    intro l t l' o hm
    rcases List.mem_append.1 hm with hm | hm
    · exact h2 _ _ _ hm
    · obtain ⟨o', _, h5⟩ := List.mem_map.1 hm; injection h5 with h5 _; omega
  -- the deadline is set anew
  have fresh : ∀ (y : TConn) (o : TObs), y.log = x.log ++ [o].map (fun o => (x.now, x.late, o)) → y.now = x.now → Spec.Progress o →
      (y.setDeadline.rl.readTimeout = 0 ∧ y.setDeadline.deadline = none) ∨
        (0 < y.setDeadline.rl.readTimeout ∧ ∃ t l o, (t, l, o) ∈ y.setDeadline.log ∧ Spec.Progress o ∧ y.setDeadline.deadline = some (t + 2 * Spec.ms y.setDeadline.rl.readTimeout) ∧
        ∀ t' l' o', (t', l', o') ∈ y.setDeadline.log → Spec.Progress o' → t' ≤ t) := by
    intro y o hl hnow ho
    rcases setDeadline_eq y with h4 | ⟨h4, h5⟩
    · exact Or.inl h4
    · right
      refine ⟨h4, x.now, x.late, o, ?_, ho, by rw [h5, hnow]; rfl, ?_⟩
      · show _ ∈ y.log
        rw [hl]; exact List.mem_append.2 (Or.inr (List.mem_singleton.2 rfl))
      · intro t' l' o' hm _
        have hm : (t', l', o') ∈ y.log := hm
        rw [hl] at hm; exact past _ _ _ _ hm
  -- the deadline stays
  have stay : ∀ (y : TConn) (l : List TObs), y.log = x.log ++ l.map (fun o => (x.now, x.late, o)) → (∀ o ∈ l, ¬Spec.Progress o) → y.rl = x.rl → y.deadline = x.deadline →
      (y.reading = true → x.reading = true) → y.reading = true → (y.rl.readTimeout = 0 ∧ y.deadline = none) ∨
    (0 < y.rl.readTimeout ∧ ∃ t l o, (t, l, o) ∈ y.log ∧ Spec.Progress o ∧ y.deadline = some (t + 2 * Spec.ms y.rl.readTimeout) ∧
      ∀ t' l' o', (t', l', o') ∈ y.log → Spec.Progress o' → t' ≤ t) := by
    intro y l hl hn hr hd hrd hy
    rw [hr, hd, hl]
    rcases h3 (hrd hy) with h4 | ⟨h4, t, l', o, h5, h6, h7, h8⟩
    · exact Or.inl h4
    · refine Or.inr ⟨h4, t, l', o, List.mem_append.2 (Or.inl h5), h6, h7, ?_⟩
      intro t' l'' o' hm hp
      rcases List.mem_append.1 hm with hm | hm
      · exact h8 _ _ _ hm hp
      · obtain ⟨o'', h9, h10⟩ := List.mem_map.1 hm
        injection h10 with _ h10; injection h10 with _ h10; subst h10
        exact absurd hp (hn _ h9)
  cases e with
  | delay d =>
    simp only [TConn.step, Option.some.injEq] at h; subst h
    exact ⟨h1, fun t l o hm => Nat.le_trans (h2 t l o hm) (Nat.le_add_right _ _), h3⟩
  | bytes =>
    simp only [TConn.step] at h; split at h <;> simp only [Option.some.injEq, reduceCtorEq] at h
    subst h
    exact ⟨h1, past _, stay _ [.bytes] rfl (by simp [Spec.Progress]) rfl rfl (fun h => h)⟩
  | item f =>
    simp only [TConn.step] at h
    split at h
    · rename_i hr
      rw [reading_iff] at hr
      cases f with
      | none =>
        simp only [Option.some.injEq] at h; subst h
        exact ⟨h1, past _, fun _ => fresh _ (.item none) rfl rfl trivial⟩
      | some f =>
        simp only [Option.some.injEq] at h; subst h
        refine ⟨?_, past _, fun hy => ?_⟩
        · show x.rl.frame cfg f = (x.conn.hist ++ x.conn.inq ++ [f]).foldl _ _
          rw [List.foldl_append, List.foldl_cons, List.foldl_nil]
          have h4 := h1
          rw [hr.2, Option.toList_none, List.append_nil] at h4
          rw [← h4]
        · rw [reading_iff] at hy; cases hy.2
    · cases h
  | push =>
    simp only [TConn.step] at h
    split at h
    · cases h
    · rename_i f hf
      obtain ⟨c, h4, h5⟩ := Option.map_eq_some_iff.1 h
      subst h5
      have h6 := step_of _ _ _ _ h4
      cases h6
      refine ⟨?_, past _, fun _ => fresh _ .pushed rfl rfl trivial⟩
      show x.rl = (x.conn.hist ++ (x.conn.inq ++ [f]) ++ []).foldl _ _
      rw [h1, hf, List.append_nil, Option.toList_some, List.append_assoc]
  | expire =>
    simp only [TConn.step] at h
    split at h
    · obtain ⟨c, h4, h5⟩ := Option.map_eq_some_iff.1 h
      subst h5
      have h6 := step_of _ _ _ _ h4
      cases h6
      exact ⟨h1, h2, fun hy => (by rw [reading_iff] at hy; cases hy.1)⟩
    · cases h
  | fail =>
    simp only [TConn.step] at h
    split at h
    · obtain ⟨c, h4, h5⟩ := Option.map_eq_some_iff.1 h
      subst h5
      have h6 := step_of _ _ _ _ h4
      cases h6
      exact ⟨h1, h2, fun hy => (by rw [reading_iff] at hy; cases hy.1)⟩
    · cases h
  | step e =>
    simp only [TConn.step] at h
    split at h
    · rename_i tm c h4 h5
      injection h with h; subst h
      have hst := step_of _ _ _ _ h5
      have hne : e ≠ .readErr ∧ e.received = [] := by
        cases e <;> simp only [TConn.timerAfter, reduceCtorEq] at h4 <;> exact ⟨by simp, rfl⟩
      have hrec := received_step hg hst
      rw [hne.2, List.append_nil] at hrec
      refine ⟨?_, ?_, ?_⟩
      · rw [arm_rl, arm_conn, arm_pending]
        show x.rl = (c.hist ++ c.inq ++ x.pending.toList).foldl _ _
        rw [hrec]; exact h1
      · rw [arm_log, arm_now]; exact past _
      · refine stay _ (TConn.goneIn x.conn e ++ (c.out.drop x.conn.out.length).map TObs.wrote) (by rw [arm_log]; rfl) ?_ (by rw [arm_rl]; rfl) (by rw [arm_deadline]; rfl) ?_
        · intro o ho
          rcases List.mem_append.1 ho with ho | ho
          · have : o = .gone := by
              unfold TConn.goneIn at ho
              split at ho
              · split at ho
                · split at ho
                  · exact List.mem_singleton.1 ho
                  · cases ho
                · cases ho
              · cases ho
            rw [this]; exact id
          · obtain ⟨w, _, rfl⟩ := List.mem_map.1 ho; exact id
        · rw [reading_iff, reading_iff, arm_conn, arm_pending]
          rintro ⟨h6, h7⟩
          exact ⟨by rw [← readDone_step hg hst hne.1]; exact h6, h7⟩
    · cases h

theorem dead_run {cfg : Config} {me : Nat} {es : List TConn.Ev} {x : TConn} (he : TEnvOk es) (h : (TConn.init me).run cfg es = some x) : DeadInv cfg x :=
  tconn_induct (P := DeadInv cfg) (fun _ _ _ hg _ hi h => dead_step hg hi h) he ⟨rfl, (by intro _ _ _ h; exact absurd h List.not_mem_nil), fun _ => Or.inl ⟨rfl, rfl⟩⟩ h

/-- `readLoop` uses the interval that was announced. -/
theorem rl_announced {cfg : Config} {x : TConn} {a b : Nat} (hd : DeadInv cfg x) (ht : Told cfg x.conn) (h : Spec.Announced x.conn a b) : x.rl.readTimeout = b := by
  obtain ⟨_, _, f, rest, cx, cy, h1, h2, h3, _⟩ := announced_eq ht h
  rw [hd.rl, h1, List.cons_append, List.cons_append, List.foldl_cons]
  have h4 : ReadLoop.frame cfg {} f = { expectingConnect := false, readTimeout := Conn.raise cx (asMilliseconds cfg.heartBeat maxHeartBeat) } := by
    unfold ReadLoop.frame; rw [h2]; rfl
  rw [h4, rl_fold_done _ _ _ rfl]
  exact h3.symm

end Stomp.Server
