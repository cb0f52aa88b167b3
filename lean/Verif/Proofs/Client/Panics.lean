import Verif.Proofs.Client.UnsubInv
/-! # Where the client can panic -/
namespace Stomp.Client
open Stomp

/-- What must be the case in a state in which a goroutine panics. -/
inductive Why (s : Sys) : Panic → Prop
  | sendWriteCh {t : Nat} {th : Thread} {r : Req} (ht : s.threads[t]? = some th) (hpc : th.pc = .push r) (hw : s.writeClosed = true) :
      Why s .sendWriteCh
  | closeWriteCh (hw : s.writeClosed = true) (hc : s.closed = false) : Why s .closeWriteCh
  | nilResponse {t : Nat} {th : Thread} {n : Nat} (ht : s.threads[t]? = some th) (hpc : th.pc = .wait n) (hc : s.chanClosed n = true)
      (hcall : (∃ d c b o, th.call = .send d c b o) ∨ th.call = .disconnect) : Why s .nilResponse
  | sendChan {n : Nat} (hc : s.chanClosed n = true)
      (hl : (∃ f id, s.loop = .receipt f id n) ∨ (∃ f, s.loop = .message f n) ∨ (∃ f l, s.loop = .errs f (n :: l)) ∨
        ∃ f l, s.loop = .fail f (n :: l)) : Why s .sendChan
  | closeChan {r : Req} {rest : List Req} {n : Nat} (hl : s.loop = .select) (hw : s.writeCh = r :: rest)
      (hn : (handleWrite s.channels r).2.1 = some n) (hc : s.chanClosed n = true) : Why s .closeChan
  | rlClose {i : Nat} {b : Sub} {p : ClosePc} {e : Panic} (hb : s.subs[i]? = some b) (hr : b.rl = .closing p) (h : CPanic b p e) : Why s e
  | rlPut {i : Nat} {b : Sub} {m : CMsg} (hb : s.subs[i]? = some b) (hr : b.rl = .put m) (hc : b.cClosed = true) : Why s .sendC
  | callClose {t : Nat} {th : Thread} {i : Nat} {o : List SubOpt} {b : Sub} {p : ClosePc} {e : Panic} (ht : s.threads[t]? = some th)
      (hcall : th.call = .unsubscribe i o) (hb : s.subs[i]? = some b) (hpc : th.pc = .closing p) (h : CPanic b p e) : Why s e
  | callPut {t : Nat} {th : Thread} {i : Nat} {o : List SubOpt} {b : Sub} (ht : s.threads[t]? = some th)
      (hcall : th.call = .unsubscribe i o) (hb : s.subs[i]? = some b) (hpc : th.pc = .putTimeout) (hc : b.cClosed = true) : Why s .sendC
  | unlockCheck {t : Nat} {th : Thread} {i : Nat} {o : List SubOpt} {b : Sub} {r : Res} (ht : s.threads[t]? = some th)
      (hcall : th.call = .unsubscribe i o) (hb : s.subs[i]? = some b) (hpc : th.pc = .check r ∨ th.pc = .condWait)
      (hl : b.locked = false) : Why s .unlock
  | unlockHelper {t : Nat} {th : Thread} {i : Nat} {o : List SubOpt} {b : Sub} (ht : s.threads[t]? = some th)
      (hcall : th.call = .unsubscribe i o) (hb : s.subs[i]? = some b) (hh : th.helper = .start) (hl : b.locked = false) : Why s .unlock

theorem handOver_crashed {s s' : Sys} {n : Nat} {f : Frame} {b : Bool} (h : s.handOver n f b = some s') :
    s'.crashed = s.crashed ∧ s'.chans = s.chans := by
  cases handOver_cases h with
  | send => exact ⟨rfl, rfl⟩
  | discOk => exact ⟨rfl, rfl⟩
  | discErr => exact ⟨rfl, rfl⟩
  | @frame t th => exact ⟨(frameDone_spec s t th.call _).choose_spec.2.1, by
      unfold Sys.frameDone; repeat' split
      all_goals rfl⟩
  | sub => exact ⟨rfl, rfl⟩

theorem closeChan_crashed {s : Sys} {n : Nat} (h : s.chanClosed n = false) : (s.closeChan n).crashed = s.crashed := by
  unfold Sys.closeChan
  rw [h]
  rfl

theorem frameDone_crashed (s : Sys) (t : Nat) (c : Call) (r : Res) : (s.frameDone t c r).crashed = s.crashed :=
  (frameDone_spec s t c r).choose_spec.2.1

theorem takeReq_crashed {s : Sys} {r : Req} {rest : List Req} {p : Panic} (hl : s.loop = .select) (hw : s.writeCh = r :: rest)
    (hn : s.crashed = none) (hp : (s.takeReq r rest).1.crashed = some p) : Why s p := by
  unfold Sys.takeReq at hp
  dsimp only at hp
  split at hp
  · rename_i n hn'
    unfold Sys.closeChan at hp
    split at hp
    · rename_i hc
      cases hp
      exact .closeChan hl hw hn' hc
    · rw [hn] at hp; cases hp
  · rw [hn] at hp; cases hp

theorem why_step {cfg : Cfg} {s s' : Sys} {p : Panic} (h : Step cfg s s') (hn : s.crashed = none) (hp : s'.crashed = some p) :
    Why s p := by
  have no : s'.crashed = s.crashed → Why s p := by
    intro e
    rw [e, hn] at hp
    cases hp
  cases h with
  | mustCrash ht hpc hcall hm hc hw => cases hp; exact .closeWriteCh hw hc
  | pushCrash ht hpc hw => cases hp; exact .sendWriteCh ht hpc hw
  | nilResponse ht hpc hc hcall => cases hp; exact .nilResponse ht hpc hc hcall
  | deliverCrash hc hl => cases hp; exact .sendChan hc hl
  | finCrash hl hm hc hw => cases hp; exact .closeWriteCh hw hc
  | @frameClosed t th => exact no (frameDone_crashed s.closeNet t th.call .closedUnexpectedly)
  | @pushFrameRet t th r => exact no (frameDone_crashed (Sys.unlock { s with writeCh := s.writeCh ++ [r], trace := s.trace ++ [.accepted t r] }) t th.call .ok)
  | @pushSub t th r n =>
    refine no ?_
    have := handOut_spec { s with writeCh := s.writeCh ++ [r], trace := s.trace ++ [.accepted t r] } n
    unfold Sys.handOut
    split <;> rfl
  | @waitClosed t th n => exact no (frameDone_crashed s t th.call _)
  | @frameTimeout t th n => exact no (frameDone_crashed s t th.call _)
  | unsub ht hcall hb hpc h =>
    cases unsub_cases h with
    | closeCrash hpc hc => cases hp; exact .callClose ht hcall hb hpc hc
    | @doneCrash r hpc hs hl => cases hp; exact .unlockCheck ht hcall hb (.inl hpc) hl
    | sleepCrash hpc hl => cases hp; exact .unlockCheck (r := .ok) ht hcall hb (.inr hpc) hl
    | putCrash hpc hc => cases hp; exact .callPut ht hcall hb hpc hc
    | _ => exact no rfl
  | helper _ _ _ h =>
    obtain ⟨th, i, o, b, ht, hcall, hb, hs⟩ := helper_cases h
    cases hs with
    | sleepCrash hh hl => cases hp; exact .unlockHelper ht hcall hb hh hl
    | _ => exact no rfl
  | takeQuiet hl hw ho => exact takeReq_crashed hl hw hn hp
  | takeSent hl hw ho => exact takeReq_crashed hl hw hn hp
  | takeFail hl hw ho => exact takeReq_crashed hl hw hn hp
  | @giveReceipt f id n b s1 hl hc h1 =>
    obtain ⟨e1, e2⟩ := handOver_crashed h1
    refine no ((closeChan_crashed (s := { s1 with channels := s1.channels.del id, loop := .select }) ?_).trans e1)
    unfold Sys.chanClosed at hc ⊢
    rw [show ({ s1 with channels := s1.channels.del id, loop := .select } : Sys).chans = s1.chans from rfl, e2]
    exact hc
  | giveMessage hl hc h1 => exact no (handOver_crashed h1).1
  | @giveErr f n l b s1 hl hc h1 =>
    obtain ⟨e1, e2⟩ := handOver_crashed h1
    refine no ((closeChan_crashed (s := { s1 with loop := .errs f l }) ?_).trans e1)
    unfold Sys.chanClosed at hc ⊢
    rw [show ({ s1 with loop := .errs f l } : Sys).chans = s1.chans from rfl, e2]
    exact hc
  | giveFail hl hc h1 => exact no (handOver_crashed h1).1
  | sub h =>
    obtain ⟨b, hb, hs⟩ := subStep_cases h
    cases hs with
    | putCrash hr hc => cases hp; exact .rlPut hb hr hc
    | closeCrash hr hx => cases hp; exact .rlClose hb hr hx
    | _ => exact no rfl
  | _ => exact no rfl

/-- A run that ends in a panic ends in a step from a state in which one is due. -/
theorem crash_run {cfg : Cfg} : ∀ {es : List Ev} {s s' : Sys} {p : Panic}, s.crashed = none → s.run cfg es = some s' →
    s'.crashed = some p → ∃ (es' : List Ev) (e : Ev) (s1 : Sys), es = es' ++ [e] ∧ s.run cfg es' = some s1 ∧
      s1.step cfg e = some s' ∧ s1.crashed = none ∧ Why s1 p
  | [], s, s', p, hn, h, hp => by cases h; rw [hn] at hp; cases hp
  | e :: es, s, s', p, hn, h, hp => by
    simp only [Sys.run, Option.bind_eq_some_iff] at h
    obtain ⟨s1, h1, h2⟩ := h
    cases hc : s1.crashed with
    | none =>
      obtain ⟨es', e', s2, he, hr, hs, hc2, hw⟩ := crash_run hc h2 hp
      refine ⟨e :: es', e', s2, by rw [he]; rfl, ?_, hs, hc2, hw⟩
      simp only [Sys.run, Option.bind_eq_some_iff]
      exact ⟨s1, h1, hr⟩
    | some q =>
      cases es with
      | nil =>
        cases h2
        rw [hc] at hp
        cases hp
        exact ⟨[], e, s, rfl, rfl, h1, hn, why_step (step_cases h1).2 hn hc⟩
      | cons e2 es =>
        simp only [Sys.run, Option.bind_eq_some_iff] at h2
        obtain ⟨s2, h3, _⟩ := h2
        rw [(step_cases h3).1] at hc
        cases hc

/-! ## Panics ruled out by the invariant -/

theorem cpanic_none {b : Sub} {w : Option (Pc × HPc)} {p : ClosePc} {e : Panic} (h : CPanic b p e)
    (hk : SubOk b w) (hp : b.rl = .closing p ∨ ∃ h, w = some (.closing p, h)) : False := by
  have hin : p.inside = true := by cases h <;> rfl
  have ho : OnceOk b (some p) := by
    rcases hp with hp | ⟨k, hp⟩
    · rcases hk.once with ⟨h1, _⟩ | ⟨_, h2⟩
      · rw [hp] at h1; simp [RlPc.at?, hin] at h1
      · rw [hp] at h2; simpa [RlPc.at?, hin] using h2
    · rcases hk.once with ⟨_, h2⟩ | ⟨h1, _⟩
      · rw [hp] at h2; simpa [wonAt, hin] using h2
      · rw [hp] at h1; simp [wonAt, hin] at h1
  have hc : b.cClosed = true := by cases h <;> assumption
  have := onceOk_broadcast ho hc
  subst this
  cases h

theorem won_call_of {s : Sys} {t : Nat} {th : Thread} {i : Nat} {o : List SubOpt} (ht : s.threads[t]? = some th)
    (hc : th.call = .unsubscribe i o) (h : th.pc ≠ .start ∧ th.pc ≠ .ret .completedSubscription) :
    s.won t = some (i, th.pc, th.helper) := won_of ht hc h.1 h.2

theorem why_closeC {s : Sys} {p : Panic} (hi : UInv s) (h : Why s p) : p ≠ .closeC := by
  intro e
  subst e
  cases h
  case rlClose i b q hb hr h =>
    obtain ⟨w, hk⟩ := hi.sub hb
    exact cpanic_none h hk (.inl hr)
  case callClose t th i o b q ht hcall hb hpc h =>
    have hw := won_call_of ht hcall (by simp [hpc])
    have hk := hi.held _ _ _ _ _ hw hb
    exact cpanic_none h hk (.inr ⟨_, by rw [hpc]⟩)

theorem why_unlock {s : Sys} {p : Panic} (hi : UInv s) (h : Why s p) : p ≠ .unlock := by
  intro e
  subst e
  cases h
  case rlClose i b q hb hr h => cases h
  case callClose t th i o b q ht hcall hb hpc h => cases h
  case unlockCheck t th i o b r ht hcall hb hpc hl =>
    have hw := won_call_of ht hcall (by rcases hpc with e | e <;> simp [e])
    have hk := (hi.held _ _ _ _ _ hw hb).lock
    rw [hl] at hk
    rcases hpc with e | e <;> rw [e] at hk <;> simp [lockedOf] at hk
  case unlockHelper t th i o b ht hcall hb hh hl =>
    have hf := (hi.dom t th ht).fresh
    have hp : th.pc ≠ .start ∧ th.pc ≠ .ret .completedSubscription := by
      constructor <;> intro e
      · rw [hf (.inl e)] at hh; cases hh
      · rw [hf (.inr e)] at hh; cases hh
    have hw := won_call_of ht hcall hp
    have hk := hi.held _ _ _ _ _ hw hb
    have hlate : th.pc.late = true := by
      have := hk.helper _ _ rfl
      rw [hh] at this
      simpa using this
    have := hk.lock
    rw [lockedOf_late hlate, hh, hl] at this
    cases this

/-- Who is to blame for a send on the closed `C`. -/
theorem why_sendC {s : Sys} (hi : UInv s) (h : Why s .sendC) :
    (∃ (t : Nat) (th : Thread) (i : Nat) (o : List SubOpt) (b : Sub), s.threads[t]? = some th ∧ th.call = .unsubscribe i o ∧ s.subs[i]? = some b ∧ b.cClosed = true ∧
        th.pc = .putTimeout) ∨
    (∃ (i : Nat) (b : Sub) (m : CMsg) (t : Nat) (th : Thread) (o : List SubOpt), s.subs[i]? = some b ∧ b.cClosed = true ∧ b.rl = .put m ∧ s.threads[t]? = some th ∧
        th.call = .unsubscribe i o ∧ (th.pc = .closing .broadcast ∨ th.pc = .ret .closedUnexpectedly)) := by
  cases h
  case rlClose i b q hb hr h =>
    obtain ⟨w, hk⟩ := hi.sub hb
    exact (cpanic_none h hk (.inl hr)).elim
  case callClose t th i o b q ht hcall hb hpc h =>
    have hw := won_call_of ht hcall (by simp [hpc])
    have hk := hi.held _ _ _ _ _ hw hb
    exact (cpanic_none h hk (.inr ⟨_, by rw [hpc]⟩)).elim
  case callPut t th i o b ht hcall hb hpc hc => exact .inl ⟨t, th, i, o, b, ht, hcall, hb, hc, hpc⟩
  case rlPut i b m hb hr hc =>
    right
    by_cases hw : ∃ t p h, s.won t = some (i, p, h)
    · obtain ⟨t, p, h, hw⟩ := hw
      have hk := hi.held t i p h b hw hb
      unfold Sys.won at hw
      cases ht : s.threads[t]? with
      | none => rw [ht] at hw; cases hw
      | some th =>
        rw [ht] at hw
        simp only [Option.bind_some, Thread.won] at hw
        split at hw
        · rename_i j o hcall
          split at hw
          · cases hw
          · cases hw
            refine ⟨i, b, m, t, th, o, hb, hc, hr, ht, hcall, ?_⟩
            rcases hk.closer hc with e | e | ⟨x, e | e⟩
            · rw [hr] at e; cases e
            · rw [hr] at e; cases e
            · left; simpa using congrArg (Option.map Prod.fst) e
            · right; simpa using congrArg (Option.map Prod.fst) e
        · cases hw
    · have hk := hi.free i b hb (fun t p h e => hw ⟨t, p, h, e⟩)
      rcases hk.closer hc with e | e | ⟨x, e | e⟩
      · rw [hr] at e; cases e
      · rw [hr] at e; cases e
      · cases e
      · cases e

end Stomp.Client
