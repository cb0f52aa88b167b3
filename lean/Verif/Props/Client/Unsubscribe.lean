import Verif.Proofs.Client.Wake
import Verif.Props.Client.Messages
/-!
# C24, C25: the channel of a subscription, and `Unsubscribe`
-/
namespace Stomp.Client
open Stomp

/-! ## C24 -/

/-- **C24**, closed at most once: in no execution is `close(s.C)` reached with `C` closed (nor is
`closeMutex` unlocked while unlocked). -/
theorem C24_close_once {cfg : Cfg} {n : Nat} {es : List Ev} {s : Sys} (h : (Sys.init n).run cfg es = some s) :
    s.crashed ≠ some .closeC ∧ s.crashed ≠ some .unlock := by
  constructor
  all_goals
    intro hc
    obtain ⟨es', e, s1, _, hr, _, _, hw⟩ := crash_run rfl h hc
    first
      | exact why_closeC (uinv_run (uinv_init n) hr) hw rfl
      | exact why_unlock (uinv_run (uinv_init n) hr) hw rfl

/-- **C24**: from the moment `C` is closed it stays closed and nothing is put on it. -/
theorem C24_nothing_after {cfg : Cfg} {n : Nat} {es es' : List Ev} {s s' : Sys} {i : Nat} {b : Sub}
    (h : (Sys.init n).run cfg es = some s) (hb : s.subs[i]? = some b) (hc : b.cClosed = true) (h' : s.run cfg es' = some s') :
    ∃ b', s'.subs[i]? = some b' ∧ b'.cClosed = true ∧ b'.got = b.got := by
  have hi := uinv_run (uinv_init n) h
  exact (run_induction (P := fun s => UInv s ∧ Frozen i b.got s)
    (fun _ _ _ hp h => ⟨uinv_step hp.1 (step_cases h).2, frozen_step hp.1.dom hp.2 (step_cases h).2⟩) es' s s' ⟨hi, b, hb, hc, rfl⟩ h').2

/-- **C24**, partial: an attempt to send on a closed `C` (a panic) happens only on behalf of a call of `Unsubscribe` on
that subscription: the call itself makes the attempt, because its timer has fired, or `readLoop` makes it with a message,
after the call has closed `C` to return `ErrClosedUnexpectedly`. -/
theorem C24_blame_partial {cfg : Cfg} {n : Nat} {es : List Ev} {s : Sys} (h : (Sys.init n).run cfg es = some s)
    (hc : s.crashed = some .sendC) :
    ∃ es' e s1, es = es' ++ [e] ∧ (Sys.init n).run cfg es' = some s1 ∧ s1.step cfg e = some s ∧
      ∃ (i : Nat) (b : Sub) (t : Nat) (th : Thread) (o : List SubOpt), s1.subs[i]? = some b ∧ b.cClosed = true ∧ s1.threads[t]? = some th ∧ th.call = .unsubscribe i o ∧
        (th.pc = .putTimeout ∨
          ((∃ m, b.rl = .put m) ∧ (th.pc = .closing .broadcast ∨ th.pc = .ret .closedUnexpectedly))) := by
  obtain ⟨es', e, s1, he, hr, hs, _, hw⟩ := crash_run rfl h hc
  refine ⟨es', e, s1, he, hr, hs, ?_⟩
  rcases why_sendC (uinv_run (uinv_init n) hr) hw with ⟨t, th, i, o, b, ht, hcall, hb, hcc, hpc⟩ |
    ⟨i, b, m, t, th, o, hb, hcc, hrl, ht, hcall, hpc⟩
  · exact ⟨i, b, t, th, o, hb, hcc, ht, hcall, .inl hpc⟩
  · exact ⟨i, b, t, th, o, hb, hcc, ht, hcall, .inr ⟨⟨m, hrl⟩, hpc⟩⟩

/-- **C24**, partial: without calls of `Unsubscribe` there is no such attempt. -/
theorem C24_without_unsubscribe_partial {cfg : Cfg} {n : Nat} {es : List Ev} {s : Sys} (h : (Sys.init n).run cfg es = some s)
    (hu : ∀ (t : Nat) (th : Thread) (i : Nat) (o : List SubOpt), s.threads[t]? = some th → th.call ≠ .unsubscribe i o) : s.crashed ≠ some .sendC := by
  intro hc
  obtain ⟨es', e, s1, he, hr, hs, i, b, t, th, o, _, _, ht, hcall, _⟩ := C24_blame_partial h hc
  obtain ⟨th', ht', hcall'⟩ := (ext_step (step_cases hs).2).threads t th ht
  exact hu t th' i o ht' (hcall'.trans hcall)

namespace Ex

/-- The connection is closed while a MESSAGE is under way; `Unsubscribe` then closes `C`, and `readLoop` sends. -/
def sendAfterClose : List Ev :=
  [.call (.subscribe b!"/q" .auto []), .thread 0, .thread 0, .loopWrite true [],
   .net (some (message b!"1" b!"a")), .loopRead [], .deliver true,
   .call .mustDisconnect, .thread 1,
   .call (.unsubscribe 0 []), .thread 2, .thread 2, .thread 2, .thread 2, .thread 2, .thread 2, .thread 2, .sub 0]

def endSendAfterClose : Sys := ((Sys.init 0).run cfg sendAfterClose).getD (Sys.init 0)
theorem sendAfterClose_run : (Sys.init 0).run cfg sendAfterClose = some endSendAfterClose := by decide +kernel

/-- The timer of `Unsubscribe` fires, it finds the subscription still open, and before it can put its error on `C` the
RECEIPT is processed and `C` closed. -/
def timeoutAfterClose : List Ev :=
  [.call (.subscribe b!"/q" .auto []), .thread 0, .thread 0, .loopWrite true [],
   .call (.unsubscribe 0 []), .thread 1, .thread 1, .thread 1, .thread 1, .thread 1, .helper 1, .loopWrite true [],
   .net (some (receiptFrame b!"1")), .timeout 1, .thread 1, .loopRead [], .deliver true, .sub 0, .sub 0, .sub 0, .sub 0, .thread 1]

/-- `twoSubs` until `closeChannel` has run. -/
def endClosed : Sys := ((Sys.init 0).run cfg (twoSubs ++ [.sub 0, .sub 0, .sub 0])).getD (Sys.init 0)
theorem closed_run : (Sys.init 0).run cfg (twoSubs ++ [.sub 0, .sub 0, .sub 0]) = some endClosed := by decide +kernel

def endTimeoutAfterClose : Sys := ((Sys.init 0).run cfg timeoutAfterClose).getD (Sys.init 0)
theorem timeoutAfterClose_run : (Sys.init 0).run cfg timeoutAfterClose = some endTimeoutAfterClose := by decide +kernel

end Ex

/-- **C24, in full, is false**: `readLoop` sends a message on the closed `C`. -/
theorem C24_false_message : ∃ es s, (Sys.init 0).run Ex.cfg es = some s ∧ s.crashed = some .sendC ∧
    s.threads.map (·.pc) = [.ret .ok, .ret .ok, .ret .closedUnexpectedly] := by
  refine ⟨Ex.sendAfterClose, Ex.endSendAfterClose, Ex.sendAfterClose_run, ?_, ?_⟩ <;> decide +kernel

/-- **C24, in full, is false**: `Unsubscribe` sends on the closed `C`. -/
theorem C24_false_timeout : ∃ es s, (Sys.init 0).run Ex.cfg es = some s ∧ s.crashed = some .sendC ∧
    s.threads.map (·.pc) = [.ret .ok, .putTimeout] := by
  refine ⟨Ex.timeoutAfterClose, Ex.endTimeoutAfterClose, Ex.timeoutAfterClose_run, ?_, ?_⟩ <;> decide +kernel

-- A closed `C` with messages in it, and a run that goes on.
example : Ex.endClosed.subs.map (fun b => (b.cClosed, b.got.length, b.once)) = [(true, 3, .done), (false, 1, .idle)] := by
  decide +kernel
example : (Ex.endClosed.run Ex.cfg [.net (some (Ex.message b!"1" b!"z")), .loopRead [], .take 0, .take 0, .thread 3, .thread 3]).map
    (fun s => (s.crashed, s.subs.map (fun b => (b.cClosed, b.got.length, b.buf.length)))) =
    some (none, [(true, 3, 1), (false, 1, 0)]) := by decide +kernel
-- An execution without `Unsubscribe` in which a subscription ends.
example : ((Sys.init 0).run Ex.cfg [.call (.subscribe b!"/q" .auto []), .thread 0, .thread 0, .loopWrite true [],
    .net (some (Ex.message b!"1" b!"a")), .net (some (Frame.new Cmd.error [])), .loopRead [], .deliver true, .sub 0,
    .loopRead [0], .deliver true, .sub 0, .sub 0, .sub 0, .sub 0, .sub 0, .sub 0, .finish]).map
      (fun s => (s.crashed, s.loop, s.subs.map (fun b => (b.cClosed, b.got.length, b.once)))) =
    some (none, .done, [(true, 2, .done)]) := by decide +kernel

/-! ## C25 -/

namespace Spec

/-- The call has sent its UNSUBSCRIBE and has not returned (nor given up). -/
def Waits (th : Thread) : Prop :=
  (∃ r, th.pc = .subLock r) ∨ (∃ r, th.pc = .check r) ∨ th.pc = .condWait ∨ (∃ k, th.pc = .asleep k) ∨ th.pc = .relock ∨ th.pc = .select

/-- It has seen the state "not closed", but was not yet counted as a waiter at the last broadcast. -/
def Missed (b : Sub) (th : Thread) : Prop :=
  th.pc = .condWait ∨ (∃ k, th.pc = .asleep k ∧ b.notified ≤ k) ∨
  (th.pc = .select ∧ (th.helper = .start ∨ ∃ k, th.helper = .asleep k ∧ b.notified ≤ k))

end Spec

/-- **C25**, partial: once `closeChannel` has run (state closed, `C` closed), an `Unsubscribe` that waits for it returns,
without the timeout error, by its own steps alone, unless it has missed the broadcast. -/
theorem C25_returns_partial {cfg : Cfg} {n : Nat} {es : List Ev} {s : Sys} {t : Nat} {th : Thread} {i : Nat} {o : List SubOpt} {b : Sub}
    (h : (Sys.init n).run cfg es = some s) (hc : s.crashed = none) (ht : s.threads[t]? = some th) (hcall : th.call = .unsubscribe i o)
    (hb : s.subs[i]? = some b) (ho : b.once = .done) (hw : Spec.Waits th) (hm : ¬ Spec.Missed b th) :
    b.state = .closed ∧ b.cClosed = true ∧
    ∃ es' s' r, (∀ e ∈ es', e = Ev.thread t ∨ e = Ev.helper t) ∧ s.run cfg es' = some s' ∧
      Spec.Returned s' t th.call r ∧ r ≠ .unsubTimeout := by
  have hi := uinv_run (uinv_init n) h
  have hwon : s.won t = some (i, th.pc, th.helper) := by
    refine won_call_of ht hcall ?_
    rcases hw with ⟨r, e⟩ | ⟨r, e⟩ | e | ⟨k, e⟩ | e | e <;> simp [e]
  have hk := hi.held t i _ _ b hwon hb
  have hcl : b.cClosed = true ∧ b.state = .closed := by
    rcases hk.once with ⟨_, h2⟩ | ⟨_, h2⟩ <;> unfold OnceOk at h2 <;> rw [ho] at h2 <;> split at h2 <;> simp_all
  have hlock := hk.lock
  have hres := hk.res _ _ rfl
  have hhelp := hk.helper _ _ rfl
  have hstart := hk.started _ _ rfl
  have fin : ∀ r, r ≠ .unsubTimeout → Comes cfg s t th.call r → ∃ es' s' r, (∀ e ∈ es', e = Ev.thread t ∨ e = Ev.helper t) ∧
      s.run cfg es' = some s' ∧ Spec.Returned s' t th.call r ∧ r ≠ .unsubTimeout := by
    rintro r hr ⟨es', s', h1, h2, h3⟩
    exact ⟨es', s', r, h1, h2, h3, hr⟩
  refine ⟨hcl.2, hcl.1, ?_⟩
  rcases hw with ⟨r, e⟩ | ⟨r, e⟩ | e | ⟨k, e⟩ | e | e
  · rw [e] at hlock hres
    exact fin r (by simpa using hres) (comes_subLock hc ht hcall hb hcl.2 hlock e)
  · rw [e] at hlock hres
    exact fin r (by simpa using hres) (comes_check hc ht hcall hb hcl.2 hlock e)
  · exact absurd (.inl e) hm
  · rw [e] at hlock
    refine fin .ok (by simp) (comes_asleep hc ht hcall hb hcl.2 hlock e ?_)
    exact Nat.lt_of_not_le (fun hle => hm (.inr (.inl ⟨k, e, hle⟩)))
  · rw [e] at hlock
    exact fin .ok (by simp) (comes_relock hc ht hcall hb hcl.2 hlock e)
  · rw [lockedOf_late (by rw [e]; rfl)] at hlock
    cases hh : th.helper with
    | none => exact absurd hh (hstart (by rw [e]; rfl))
    | start => exact absurd (.inr (.inr ⟨e, .inl hh⟩)) hm
    | asleep k =>
      rw [hh] at hlock
      refine fin .ok (by simp) (comes_helperAsleep hc ht hcall hb hcl.2 hlock e hh ?_)
      exact Nat.lt_of_not_le (fun hle => hm (.inr (.inr ⟨e, .inr ⟨k, hh, hle⟩⟩)))
    | relock =>
      rw [hh] at hlock
      exact fin .ok (by simp) (comes_helperRelock hc ht hcall hb hcl.2 hlock e hh)
    | done =>
      rw [hh] at hlock
      exact fin .ok (by simp) (comes_select hc ht hcall hb hcl.2 hlock e hh)

/-- **C25**: an `Unsubscribe` without timeout that has missed the broadcast never returns, whatever happens. -/
theorem C25_missed {cfg : Cfg} {n : Nat} {es : List Ev} {s : Sys} {t : Nat} {th : Thread} {i : Nat} {o : List SubOpt} {b : Sub}
    (h : (Sys.init n).run cfg es = some s) (ht : s.threads[t]? = some th) (hcall : th.call = .unsubscribe i o)
    (hb : s.subs[i]? = some b) (ho : b.once = .done) (hh : th.helper = .none) (hm : Spec.Missed b th) :
    ∀ es' s', s.run cfg es' = some s' → ¬ ∃ r, Spec.Returned s' t th.call r := by
  have hi := uinv_run (uinv_init n) h
  have hpc : th.pc = .condWait ∨ ∃ k, th.pc = .asleep k ∧ b.notified ≤ k := by
    rcases hm with e | e | ⟨_, e | ⟨k, e, _⟩⟩
    · exact .inl e
    · exact .inr e
    · rw [hh] at e; cases e
    · rw [hh] at e; cases e
  have hwon : s.won t = some (i, th.pc, .none) := by
    rw [← hh]
    refine won_call_of ht hcall ?_
    rcases hpc with e | ⟨k, e, _⟩ <;> simp [e]
  intro es' s' h' ⟨r, th', ht', hcall', hpc'⟩
  have hl := (run_induction (P := fun s => UInv s ∧ Lost t i s)
    (fun s e s' hp h => ⟨uinv_step hp.1 (step_cases h).2, lost_step hp.1 hp.2 (step_cases h).2⟩) es' s s'
    ⟨hi, b, th.pc, hb, ho, hwon, hpc⟩ h').2
  obtain ⟨b', pc, _, _, hw', hp'⟩ := hl
  have : s'.won t = none ∨ s'.won t = some (i, th'.pc, th'.helper) := by
    by_cases hp : th'.pc = .start ∨ th'.pc = .ret .completedSubscription
    · exact .inl (won_none ht' (.inr hp))
    · exact .inr (won_call_of ht' (hcall'.trans hcall) ⟨fun e => hp (.inl e), fun e => hp (.inr e)⟩)
  rcases this with e | e
  · rw [hw'] at e; cases e
  · rw [hw'] at e
    simp only [Option.some.injEq, Prod.mk.injEq] at e
    have e := e.2.1
    rcases hp' with e' | ⟨k, e', _⟩ <;> rw [e', hpc'] at e <;> cases e

namespace Ex

def cfgNoTimeout : Cfg := { cfg with unsubTimeout := false }

/-- `Unsubscribe` has sent its frame and seen the state "closing"; before it is counted as a waiter the RECEIPT is processed. -/
def lostWakeup : List Ev :=
  [.call (.subscribe b!"/q" .auto []), .thread 0, .thread 0, .loopWrite true [],
   .call (.unsubscribe 0 []), .thread 1, .thread 1, .thread 1, .thread 1, .thread 1, .loopWrite true [],
   .net (some (receiptFrame b!"1")), .loopRead [], .deliver true, .sub 0, .sub 0, .sub 0, .sub 0, .sub 0]

def endLost : Sys := ((Sys.init 0).run cfgNoTimeout lostWakeup).getD (Sys.init 0)
theorem lost_run : (Sys.init 0).run cfgNoTimeout lostWakeup = some endLost := by decide +kernel

def endLostTimeout : Sys := ((Sys.init 0).run cfg (lostWakeup ++ [.helper 1, .timeout 1, .thread 1])).getD (Sys.init 0)
theorem lostTimeout_run : (Sys.init 0).run cfg (lostWakeup ++ [.helper 1, .timeout 1, .thread 1]) = some endLostTimeout := by
  decide +kernel

end Ex

/-- **C25, in full, is false**: the RECEIPT has been processed, the state is closed, `C` is closed, and `Unsubscribe`
(without timeout) returns in no continuation. -/
theorem C25_false : ∃ (es : List Ev) (s : Sys) (b : Sub) (th : Thread), (Sys.init 0).run Ex.cfgNoTimeout es = some s ∧ s.crashed = none ∧
    Obs.took (some (Ex.receiptFrame b!"1")) ∈ s.trace ∧
    s.subs[0]? = some b ∧ b.id = b!"1" ∧ b.state = .closed ∧ b.cClosed = true ∧ b.rl = .done ∧
    s.threads[1]? = some th ∧ th.call = .unsubscribe 0 [] ∧
    ∀ es' s', s.run Ex.cfgNoTimeout es' = some s' → ¬ ∃ r, Spec.Returned s' 1 th.call r := by
  refine ⟨Ex.lostWakeup, Ex.endLost, (Ex.endLost.subs[0]?).getD (Sub.new [] false 0), ⟨.unsubscribe 0 [], .condWait, .none⟩,
    Ex.lost_run, ?_, ?_, ?_, ?_, ?_, ?_, ?_, ?_, rfl, ?_⟩
  · decide +kernel
  · decide +kernel
  · decide +kernel
  · decide +kernel
  · decide +kernel
  · decide +kernel
  · decide +kernel
  · decide +kernel
  · refine C25_missed (n := 0) (i := 0) (o := []) (b := (Ex.endLost.subs[0]?).getD (Sub.new [] false 0)) Ex.lost_run ?_ rfl ?_ ?_ rfl (.inl rfl)
    all_goals decide +kernel

/-- **C25, in full, is false**: with a timeout the call returns the timeout error although the RECEIPT was processed,
the state is closed and `C` is closed, before the timer fired. -/
theorem C25_false_timeout : ∃ es es' s s', (Sys.init 0).run Ex.cfg es = some s ∧
    s.subs.map (fun b => (b.id, b.state, b.cClosed, b.rl)) = [(b!"1", .closed, true, .done)] ∧
    Obs.took (some (Ex.receiptFrame b!"1")) ∈ s.trace ∧
    es' = [.helper 1, .timeout 1, .thread 1] ∧ s.run Ex.cfg es' = some s' ∧ s'.crashed = none ∧
    Spec.Returned s' 1 (.unsubscribe 0 []) .unsubTimeout := by
  refine ⟨Ex.lostWakeup, _, ((Sys.init 0).run Ex.cfg Ex.lostWakeup).getD (Sys.init 0), Ex.endLostTimeout, ?_, ?_, ?_, rfl, ?_, ?_, ?_⟩
  · decide +kernel
  · decide +kernel
  · decide +kernel
  · decide +kernel
  · decide +kernel
  · exact ⟨⟨.unsubscribe 0 [], .ret .unsubTimeout, .asleep 0⟩, by decide +kernel, rfl, rfl⟩

-- Calls that wait for the end of their subscription and have not missed it.
example : ∃ (th : Thread) (b : Sub), Ex.endClosed.threads[3]? = some th ∧ th.call = .unsubscribe 0 [] ∧ Ex.endClosed.subs[0]? = some b ∧
    b.once = .done ∧ Spec.Waits th ∧ ¬ Spec.Missed b th := by
  refine ⟨⟨.unsubscribe 0 [], .subLock .ok, .none⟩, (Ex.endClosed.subs[0]?).getD (Sub.new [] false 0), ?_, rfl, ?_, ?_, .inl ⟨.ok, rfl⟩, ?_⟩
  · decide +kernel
  · decide +kernel
  · decide +kernel
  · simp [Spec.Missed]

end Stomp.Client
