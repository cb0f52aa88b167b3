import Verif.Proofs.Client.Timer
import Verif.Props.Client.Failure
/-!
# C29: heart-beats and read timeouts

*While its I/O loop is not blocked, a client with negotiated write interval W > 0 never lets more than W pass between two
transmissions, and it declares a read timeout only if nothing was received for the whole read interval.*

The executions are those of the client system with a clock (`Model/Client/Timer.lean`). `late` sums up the time that
passed while the loop had something to do (`C29_late`); it does not grow while the loop is not blocked. The first half
is false: a SUBSCRIBE or UNSUBSCRIBE for a temporary (reply-to) queue, which is not sent, restarts the write timer.
-/
namespace Stomp.Client
open Stomp

namespace Spec

/-- Something goes over the wire: a frame or a heart-beat. -/
def Transmits (o : Obs) : Prop := o = .beat ∨ ∃ f, o = .sent f

/-- At time `t`, when the loop had been late by `l`, something was transmitted, or the connection came up. -/
def Transmission (x : TSys) (t l : Nat) : Prop := (t = 0 ∧ l = 0) ∨ ∃ o, (t, l, o) ∈ x.log ∧ Transmits o

/-- The events of `processLoop` at its `select`. -/
def LoopEvent (e : Ev) : Prop :=
  (∃ o, e = .loopRead o) ∨ (∃ ok o, e = .loopWrite ok o) ∨ (∃ ok o, e = .loopBeat ok o) ∨ ∃ o, e = .loopTimeout o

end Spec

theorem transmits_iff {o : Obs} : Spec.Transmits o ↔ o.sends = true := by
  unfold Spec.Transmits
  cases o <;> simp [Obs.sends]

/-- **C29**, transmissions (partial: false as worded, see `C29_false`): if `processLoop` has taken no request for a
temporary queue and has not begun to report the end of the connection, something was transmitted in the last `W`, not
counting the time for which the loop has been late since. -/
theorem C29_write_partial {c : TCfg} {n : Nat} {es : List TEv} {x : TSys} (h : (TSys.init c n).run c es = some x)
    (hc : c.sys.writeTimeout = true) (hl : ¬ Spec.Ending x.sys)
    (ht : ∀ r, Obs.taken r ∈ x.sys.trace → ¬ Spec.TempQueue r.frame) :
    ∃ t l, Spec.Transmission x t l ∧ t ≤ x.now ∧ l ≤ x.late ∧ x.now ≤ t + c.write + (x.late - l) := by
  have hw : WInv c x := trun_induct (fun _ _ _ => winv_step hc) es (winv_init hc n) h
  obtain ⟨dl, t, l, _, h1, h2, h3, h4⟩ := hw (Bool.eq_false_iff.2 fun he => hl (ending_iff.2 he)) ht
  refine ⟨t, l, ?_, ?_, h2, by omega⟩
  · rcases h1 with h1 | ⟨o, h1, h5⟩
    · exact .inl h1
    · exact .inr ⟨o, h1, transmits_iff.2 h5⟩
  · rcases h1 with h1 | ⟨o, h1, h5⟩
    · omega
    · exact ((log_run h).stamps t l o h1).1

/-- The log of the timed system is the trace of the system, stamped. -/
theorem C29_log {c : TCfg} {n : Nat} {es : List TEv} {x : TSys} (h : (TSys.init c n).run c es = some x) :
    x.log.map (·.2.2) = x.sys.trace := (log_run h).trace

/-- **C29**, read timeouts: `processLoop` declares a read timeout only if it has taken nothing from the network for the
whole read interval. -/
theorem C29_read {c : TCfg} {n : Nat} {es : List TEv} {x x' : TSys} {o : List Nat} (h : (TSys.init c n).run c es = some x)
    (h' : x.step c (.step (.loopTimeout o)) = some x') :
    c.read ≤ x.now ∧ ∀ t l f, (t, l, Obs.took f) ∈ x.log → t + c.read ≤ x.now := by
  have hi := rinv_run h
  obtain ⟨r, w, s, l, h1, _⟩ := tstep_cases h'
  simp only [TSys.timers] at h1
  split at h1
  · rename_i hf
    cases hr : x.readTimer with
    | none => rw [hr] at hf; cases hf
    | some dl =>
      rw [hr] at hf
      simp only [fired, decide_eq_true_eq] at hf
      refine ⟨Nat.le_trans (hi.start dl hr) hf, fun t l f hf' => ?_⟩
      have := hi.took t l f hf' dl hr
      omega
  · cases h1

/-- **C29**, read timeouts: and unless the loop has been late since, nothing has arrived for the whole read interval,
except what arrives at the very moment of the timeout. -/
theorem C29_received {c : TCfg} {n : Nat} {es : List TEv} {x x' : TSys} {o : List Nat} (h : (TSys.init c n).run c es = some x)
    (h' : x.step c (.step (.loopTimeout o)) = some x') :
    ∀ t l f, (t, l, Obs.read f) ∈ x.log → t + c.read ≤ x.now ∨ t = x.now ∨ l < x.late := by
  have hi := rinv_run h
  obtain ⟨r, w, s, l, h1, _⟩ := tstep_cases h'
  simp only [TSys.timers] at h1
  split at h1
  · rename_i hf
    cases hr : x.readTimer with
    | none => rw [hr] at hf; cases hf
    | some dl =>
      rw [hr] at hf
      simp only [fired, decide_eq_true_eq] at hf
      intro t l f hf'
      rcases hi.read t l f hf' with h2 | ⟨_, h2⟩
      · have := h2 dl hr; omega
      · omega
  · cases h1

/-! ## When the loop is late -/

/-- Timers that run are configured. -/
def ArmInv (c : TCfg) (x : TSys) : Prop :=
  (x.readTimer ≠ none → c.sys.readTimeout = true) ∧ (x.writeTimer ≠ none → c.sys.writeTimeout = true)

theorem armInv_arm {c : TCfg} {x : TSys} (h : ArmInv c x) : ArmInv c (x.arm c) := by
  unfold TSys.arm
  split
  · constructor
    · dsimp only; split
      · rename_i h1; exact fun _ => h1.1
      · exact h.1
    · dsimp only; split
      · rename_i h1; exact fun _ => h1.1
      · exact h.2
  · exact h

theorem armInv_step {c : TCfg} {x x' : TSys} {e : TEv} (hi : ArmInv c x) (h : x.step c e = some x') : ArmInv c x' := by
  cases e with
  | delay d =>
    simp only [TSys.step, Option.some.injEq] at h
    subst h; exact hi
  | step e =>
    obtain ⟨r, w, s, l, h1, h2, h3, rfl⟩ := tstep_cases h
    refine armInv_arm ?_
    have hr : (r = x.readTimer ∨ r = none) ∧ (w = x.writeTimer ∨ w = none) := by
      cases e with
      | loopTimeout o | loopBeat ok o =>
        simp only [TSys.timers] at h1
        split at h1
        · simp only [Option.some.injEq, Prod.mk.injEq] at h1
          simp [← h1.1, ← h1.2]
        · cases h1
      | _ =>
        simp only [TSys.timers, Option.some.injEq, Prod.mk.injEq] at h1
        simp [← h1.1, ← h1.2]
    constructor
    · dsimp only
      rcases hr.1 with h | h
      · rw [h]; exact hi.1
      · rw [h]; exact fun h => absurd rfl h
    · dsimp only
      rcases hr.2 with h | h
      · rw [h]; exact hi.2
      · rw [h]; exact fun h => absurd rfl h

theorem step_enabled {c : TCfg} {x : TSys} {e : Ev} (h1 : ∃ p, x.timers e = some p) (h2 : ∃ s, x.sys.step c.sys e = some s) :
    ∃ x', x.step c (.step e) = some x' := by
  obtain ⟨⟨r, w⟩, h1⟩ := h1
  obtain ⟨s, h2⟩ := h2
  simp only [TSys.step, h1, h2]
  exact ⟨_, rfl⟩

theorem failWith_enabled (s : Sys) (x : Bytes) : ∃ s', s.failWith x (s.channels.map (·.2)) = some s' := by
  unfold Sys.failWith
  rw [if_pos (List.isPerm_iff.2 (List.Perm.refl _))]
  exact ⟨_, rfl⟩

/-- **C29**, what being late means: time counts only if `processLoop` is not at its `select`, or if something it could do
there was ready before the time was over. -/
theorem C29_late {c : TCfg} {n : Nat} {es : List TEv} {x x' : TSys} {d : Nat} (h : (TSys.init c n).run c es = some x)
    (hp : x.sys.crashed = none) (h' : x.step c (.delay d) = some x') (hl : x'.late ≠ x.late) :
    x.sys.loop ≠ .select ∨
    ∃ d' y e y', d' < d ∧ x.step c (.delay d') = some y ∧ Spec.LoopEvent e ∧ y.step c (.step e) = some y' := by
  have hi : ArmInv c x := trun_induct (fun _ _ _ => armInv_step) es
    (armInv_arm ⟨fun h => absurd rfl h, fun h => absurd rfl h⟩) h
  by_cases hsel : x.sys.loop = .select
  · right
    simp only [TSys.step, Option.some.injEq] at h'
    subst h'
    dsimp only at hl
    split at hl
    · exact absurd rfl hl
    rename_i hid
    have hd : 0 < d := by omega
    -- something is ready at once
    have now : ∀ e, Spec.LoopEvent e → (∃ y', x.step c (.step e) = some y') →
        ∃ d' y e y', d' < d ∧ x.step c (.delay d') = some y ∧ Spec.LoopEvent e ∧ y.step c (.step e) = some y' := by
      rintro e he ⟨y', hy⟩
      refine ⟨0, { x with now := x.now + 0, late := if x.idle 0 then x.late else x.late + 0 }, e, y', hd, rfl, he, ?_⟩
      rw [show ({ x with now := x.now + 0, late := if x.idle 0 then x.late else x.late + 0 } : TSys) = x by
        cases x; simp]
      exact hy
    have hstep : ∀ e, x.sys.step c.sys e = match e with
        | .loopRead o => x.sys.loopRead o
        | .loopWrite ok o => x.sys.loopWrite ok o
        | e => x.sys.step c.sys e := by
      intro e
      cases e <;> simp [Sys.step, hp, hsel]
    by_cases hr : x.sys.readCh = [] ∧ x.sys.readDone = false
    · by_cases hw : x.sys.writeCh = [] ∧ x.sys.writeClosed = false
      · -- a timer
        have key : (∃ r, x.readTimer = some r ∧ r < x.now + d) ∨ ∃ w, x.writeTimer = some w ∧ w < x.now + d := by
          simp only [TSys.idle, decide_eq_true_eq] at hid
          cases hrt : x.readTimer with
          | some r =>
            by_cases hlt : r < x.now + d
            · exact .inl ⟨r, rfl, hlt⟩
            · cases hwt : x.writeTimer with
              | some w =>
                by_cases hlt' : w < x.now + d
                · exact .inr ⟨w, rfl, hlt'⟩
                · exfalso
                  refine hid ⟨hsel, hr.1, hr.2, hw.1, hw.2, ?_, ?_⟩
                  · intro r' h; rw [hrt] at h; cases h; omega
                  · intro r' h; rw [hwt] at h; cases h; omega
              | none =>
                exfalso
                refine hid ⟨hsel, hr.1, hr.2, hw.1, hw.2, ?_, ?_⟩
                · intro r' h; rw [hrt] at h; cases h; omega
                · intro r' h; rw [hwt] at h; cases h
          | none =>
            cases hwt : x.writeTimer with
            | some w =>
              by_cases hlt' : w < x.now + d
              · exact .inr ⟨w, rfl, hlt'⟩
              · exfalso
                refine hid ⟨hsel, hr.1, hr.2, hw.1, hw.2, ?_, ?_⟩
                · intro r' h; rw [hrt] at h; cases h
                · intro r' h; rw [hwt] at h; cases h; omega
            | none =>
              exfalso
              refine hid ⟨hsel, hr.1, hr.2, hw.1, hw.2, ?_, ?_⟩
              · intro r' h; rw [hrt] at h; cases h
              · intro r' h; rw [hwt] at h; cases h
        rcases key with ⟨r, hrt, hlt⟩ | ⟨w, hwt, hlt⟩
        · refine ⟨r - x.now, { x with now := x.now + (r - x.now), late := if x.idle (r - x.now) then x.late else x.late + (r - x.now) },
            .loopTimeout (x.sys.channels.map (·.2)), ?_⟩
          obtain ⟨y', hy'⟩ := step_enabled (c := c) (x := { x with
              now := x.now + (r - x.now), late := if x.idle (r - x.now) then x.late else x.late + (r - x.now) })
            (e := .loopTimeout (x.sys.channels.map (·.2)))
            ⟨(x.readTimer, x.writeTimer), by simp only [TSys.timers, hrt, fired]; rw [if_pos (by simp; omega)]⟩
            (by
              have hc := hi.1 (by rw [hrt]; simp)
              simp only [Sys.step, hp, hsel, hc]
              exact failWith_enabled _ _)
          exact ⟨y', by omega, rfl, .inr (.inr (.inr ⟨_, rfl⟩)), hy'⟩
        · refine ⟨w - x.now, { x with now := x.now + (w - x.now), late := if x.idle (w - x.now) then x.late else x.late + (w - x.now) },
            .loopBeat false (x.sys.channels.map (·.2)), ?_⟩
          obtain ⟨y', hy'⟩ := step_enabled (c := c) (x := { x with
              now := x.now + (w - x.now), late := if x.idle (w - x.now) then x.late else x.late + (w - x.now) })
            (e := .loopBeat false (x.sys.channels.map (·.2)))
            ⟨(x.readTimer, none), by simp only [TSys.timers, hwt, fired]; rw [if_pos (by simp; omega)]⟩
            (by
              have hc := hi.2 (by rw [hwt]; simp)
              simp only [Sys.step, hp, hsel, Sys.loopBeat, hc]
              exact failWith_enabled _ _)
          exact ⟨y', by omega, rfl, .inr (.inr (.inl ⟨_, _, rfl⟩)), hy'⟩
      · -- `writeCh`
        cases hwc : x.sys.writeCh with
        | nil =>
          have hcl : x.sys.writeClosed = true := by
            cases hcl : x.sys.writeClosed with
            | true => rfl
            | false => exact absurd ⟨hwc, hcl⟩ hw
          refine now (.loopWrite false (x.sys.channels.map (·.2))) (.inr (.inl ⟨_, _, rfl⟩)) (step_enabled ⟨_, rfl⟩ ?_)
          rw [hstep]
          simp only [Sys.loopWrite, hwc, hcl, if_true]
          exact failWith_enabled _ _
        | cons r rest =>
          refine now (.loopWrite false ((x.sys.takeReq r rest).1.channels.map (·.2))) (.inr (.inl ⟨_, _, rfl⟩)) (step_enabled ⟨_, rfl⟩ ?_)
          rw [hstep]
          simp only [Sys.loopWrite, hwc]
          split
          · exact ⟨_, rfl⟩
          · rename_i s1 f he
            rw [he]
            exact failWith_enabled (s1.log (.failed f)) _
    · -- `readCh`
      refine now (.loopRead (x.sys.channels.map (·.2))) (.inl ⟨_, rfl⟩) (step_enabled ⟨_, rfl⟩ ?_)
      rw [hstep]
      simp only [Sys.loopRead]
      have hperm : (x.sys.channels.map (·.2)).isPerm (x.sys.channels.map (·.2)) = true := List.isPerm_iff.2 (List.Perm.refl _)
      repeat' split
      all_goals first
        | exact ⟨_, rfl⟩
        | exact failWith_enabled _ _
        | (exfalso; simp_all; done)
        | (unfold Sys.failWith; rw [if_pos hperm]; exact ⟨_, rfl⟩)
  · exact .inl hsel

/-! ## Silence -/

namespace Ex

/-- A write interval of 10, no read timeout. -/
def tcfg : TCfg := { sys := { cfgPlain with writeTimeout := true }, read := 0, write := 10 }

/-- `Subscribe` with a reply-to header. -/
def replyTo : Call := .subscribe b!"/queue/a" .auto [.header b!"reply-to" b!"/temp-queue/x"]

/-- Nine units of time, then the `t`-th call: `Subscribe` for a temporary queue. -/
def round (t : Nat) : List TEv :=
  [.delay 9, .step (.call replyTo), .step (.thread t), .step (.thread t), .step (.loopWrite true [])]

def rounds : Nat → List TEv
  | 0 => []
  | n + 1 => rounds n ++ round n

end Ex

/-- At the top of the loop with the write timer just set, nothing to do, and nothing sent so far. -/
structure Quiet (x : TSys) (n : Nat) : Prop where
  crashed : x.sys.crashed = none
  loop : x.sys.loop = .select
  readCh : x.sys.readCh = []
  readDone : x.sys.readDone = false
  writeCh : x.sys.writeCh = []
  writeClosed : x.sys.writeClosed = false
  mutex : x.sys.mutex = none
  closed : x.sys.closed = false
  threads : x.sys.threads.length = n
  readTimer : x.readTimer = none
  writeTimer : x.writeTimer = some (x.now + 10)
  late : x.late = 0
  now : x.now = 9 * n
  log : ∀ t l o, (t, l, o) ∈ x.log → ¬ Spec.Transmits o

theorem trun_append {c : TCfg} : ∀ (es es' : List TEv) (x : TSys), x.run c (es ++ es') = (x.run c es).bind fun x => x.run c es'
  | [], _, _ => rfl
  | e :: es, es', x => by
    simp only [List.cons_append, TSys.run, Option.bind_assoc]
    congr 1
    funext y
    exact trun_append es es' y

/-- The SUBSCRIBE frame of `Ex.replyTo`. -/
def Ex.replyFrame : Frame :=
  Frame.new Cmd.subscribe [(Hdr.destination, b!"/queue/a"), (Hdr.ack, b!"auto"), (Hdr.replyTo, b!"/temp-queue/x"), (Hdr.id, b!"/temp-queue/x")]

theorem replyFrame_eq (last : Nat) : createSubscribeFrame last b!"/queue/a" .auto [.header b!"reply-to" b!"/temp-queue/x"] =
    some (last, Ex.replyFrame, b!"/temp-queue/x", true) := rfl

theorem handleWrite_reply (m : AMap Nat) (k : Nat) :
    handleWrite m ⟨Ex.replyFrame, some k⟩ = (m.set b!"/temp-queue/x" k, none, none) := rfl

theorem modify_last {α : Type} (l : List α) (x : α) (f : α → α) : (l ++ [x]).modify l.length f = l ++ [f x] := by
  induction l with
  | nil => rfl
  | cons a l ih => simp [ih]

open Ex in
/-- The system during a round. -/
theorem quiet_sys {s : Sys} (h1 : s.crashed = none) (h2 : s.loop = .select) (h5 : s.writeCh = []) (h6 : s.writeClosed = false)
    (h7 : s.mutex = none) (h8 : s.closed = false) :
    ∃ s1 s2 s3 s4, s.step tcfg.sys (.call replyTo) = some s1 ∧ s1.step tcfg.sys (.thread s.threads.length) = some s2 ∧
      s2.step tcfg.sys (.thread s.threads.length) = some s3 ∧ s3.step tcfg.sys (.loopWrite true []) = some s4 ∧
      s1.loop = .select ∧ s2.loop = .select ∧ s3.loop = .select ∧
      s4.crashed = none ∧ s4.loop = .select ∧ s4.readCh = s.readCh ∧ s4.readDone = s.readDone ∧ s4.writeCh = [] ∧
      s4.writeClosed = false ∧ s4.mutex = none ∧ s4.closed = false ∧ s4.threads.length = s.threads.length + 1 ∧
      s1.trace = s.trace ∧ s2.trace = s.trace ∧
      s3.trace = s.trace ++ [.accepted s.threads.length ⟨replyFrame, some s.chans.length⟩, .ret s.threads.length .ok] ∧
      s4.trace = s3.trace ++ [.taken ⟨replyFrame, some s.chans.length⟩] := by
  obtain ⟨closed, netClosed, mutex, writeCh, writeClosed, readCh, readDone, loop, channels, chans, threads, subs, lastId, crashed, trace⟩ := s
  dsimp only at h1 h2 h5 h6 h7 h8
  subst h1 h2 h5 h6 h7 h8
  let th (pc : Pc) : Thread := ⟨replyTo, pc, .none⟩
  let s1 : Sys := ⟨false, netClosed, none, [], false, readCh, readDone, .select, channels, chans, threads ++ [th .start], subs, lastId, none, trace⟩
  let req : Req := ⟨replyFrame, some chans.length⟩
  let s2 : Sys := ⟨false, netClosed, some threads.length, [], false, readCh, readDone, .select, channels,
    chans ++ [⟨.sub subs.length, false⟩], threads ++ [th (.push req)], subs ++ [Sub.new b!"/temp-queue/x" true chans.length], lastId, none, trace⟩
  let s3 : Sys := ⟨false, netClosed, none, [req], false, readCh, readDone, .select, channels,
    chans ++ [⟨.sub subs.length, false⟩], threads ++ [th (.ret .ok)],
    subs ++ [{ Sub.new b!"/temp-queue/x" true chans.length with returned := true }], lastId, none,
    trace ++ [.accepted threads.length req, .ret threads.length .ok]⟩
  let s4 : Sys := ⟨false, netClosed, none, [], false, readCh, readDone, .select, channels.set b!"/temp-queue/x" chans.length,
    chans ++ [⟨.sub subs.length, false⟩], threads ++ [th (.ret .ok)],
    subs ++ [{ Sub.new b!"/temp-queue/x" true chans.length with returned := true }], lastId, none,
    trace ++ [.accepted threads.length req, .ret threads.length .ok] ++ [.taken req]⟩
  have hmod : ∀ (a b : Pc), (threads ++ [th a]).modify threads.length (fun t => { t with pc := b }) = threads ++ [th b] := by
    intro a b
    exact modify_last _ _ _
  refine ⟨s1, s2, s3, s4, rfl, ?_, ?_, ?_, rfl, rfl, rfl, rfl, rfl, rfl, rfl, rfl, rfl, rfl, rfl, ?_, rfl, rfl, rfl, rfl⟩
  · have hg : s1.threads[threads.length]? = some (th .start) := by simp [s1]
    simp only [Sys.step, Sys.thread, hg]
    simp only [th, s1, replyTo, Sys.begin, replyFrame_eq, Sys.newChan, Sys.goto]
    simp only [Option.isSome_none, Bool.false_eq_true, if_false, Option.some.injEq]
    rw [modify_last]
    rfl
  · have hg : s2.threads[threads.length]? = some (th (.push req)) := by simp [s2]
    simp only [Sys.step, Sys.thread, hg]
    simp only [th, s2, replyTo, Sys.push, req]
    simp only [Option.isSome_none, Bool.false_eq_true, if_false, Sys.handOut, List.getElem?_concat_length]
    simp only [Sys.unlock, Sys.ret, Sys.goto, Sys.log]
    rw [modify_last, modify_last]
    simp [s3, th, req, tcfg, cfgPlain, cfgReceipt, replyTo]
  · rfl
  · simp [s4]

theorem arm_running (c : TCfg) {x : TSys} {w : Nat} (hr : c.sys.readTimeout = false) (hw : x.writeTimer = some w) : x.arm c = x := by
  obtain ⟨s, now, rt, wt, late, log⟩ := x
  dsimp only at hw
  subst hw
  unfold TSys.arm
  split
  · simp [hr]
  · rfl

open Ex in
theorem quiet_round {x : TSys} {n : Nat} (h : Quiet x n) : ∃ x', x.run tcfg (round n) = some x' ∧ Quiet x' (n + 1) := by
  obtain ⟨s, now, rt, wt, late, log⟩ := x
  obtain ⟨h1, h2, h3, h4, h5, h6, h7, h8, h9, h10, h11, h12, h13, h14⟩ := h
  dsimp only at h1 h2 h3 h4 h5 h6 h7 h8 h9 h10 h11 h12 h13 h14
  obtain ⟨s1, s2, s3, s4, g1, g2, g3, g4, l1, l2, l3, k1, k2, k3, k4, k5, k6, k7, k8, k9, t1, t2, t3, t4⟩ :=
    quiet_sys h1 h2 h5 h6 h7 h8
  rw [h9] at g2 g3 k9 t3
  rw [h3] at k3
  rw [h4] at k4
  subst h10 h11 h12
  have e0 : TSys.step tcfg ⟨s, now, none, some (now + 10), 0, log⟩ (.delay 9) = some ⟨s, now + 9, none, some (now + 10), 0, log⟩ := by
    have : TSys.idle ⟨s, now, none, some (now + 10), 0, log⟩ 9 = true := by
      simp [TSys.idle, h2, h3, h4, h5, h6]
    simp only [TSys.step, this, if_true]
  have d0 : ∀ l : List Obs, (l.drop l.length).map (fun o => (now + 9, 0, o)) = ([] : List (Nat × Nat × Obs)) := by
    intro l; rw [List.drop_length]; rfl
  have e1 : TSys.step tcfg ⟨s, now + 9, none, some (now + 10), 0, log⟩ (.step (.call replyTo)) =
      some ⟨s1, now + 9, none, some (now + 10), 0, log⟩ := by
    simp only [TSys.step, TSys.timers, g1]
    rw [arm_running (w := now + 10) tcfg rfl rfl, t1, d0, List.append_nil]
  have e2 : TSys.step tcfg ⟨s1, now + 9, none, some (now + 10), 0, log⟩ (.step (.thread n)) =
      some ⟨s2, now + 9, none, some (now + 10), 0, log⟩ := by
    simp only [TSys.step, TSys.timers, g2]
    rw [arm_running (w := now + 10) tcfg rfl rfl, t2, t1, d0, List.append_nil]
  have e3 : TSys.step tcfg ⟨s2, now + 9, none, some (now + 10), 0, log⟩ (.step (.thread n)) =
      some ⟨s3, now + 9, none, some (now + 10), 0, log ++ [(now + 9, 0, .accepted n ⟨replyFrame, some s.chans.length⟩), (now + 9, 0, .ret n .ok)]⟩ := by
    simp only [TSys.step, TSys.timers, g3]
    rw [arm_running (w := now + 10) tcfg rfl rfl, t2, t3, List.drop_left]
    rfl
  have e4 : TSys.step tcfg ⟨s3, now + 9, none, some (now + 10), 0, log ++ [(now + 9, 0, .accepted n ⟨replyFrame, some s.chans.length⟩), (now + 9, 0, .ret n .ok)]⟩
      (.step (.loopWrite true [])) =
      some ⟨s4, now + 9, none, some (now + 9 + 10), 0,
        log ++ [(now + 9, 0, .accepted n ⟨replyFrame, some s.chans.length⟩), (now + 9, 0, .ret n .ok)] ++
          [(now + 9, 0, .taken ⟨replyFrame, some s.chans.length⟩)]⟩ := by
    simp only [TSys.step, TSys.timers, g4]
    rw [t4, List.drop_left]
    simp [TSys.arm, k2, tcfg, cfgPlain, cfgReceipt]
  refine ⟨⟨s4, now + 9, none, some (now + 9 + 10), 0,
        log ++ [(now + 9, 0, .accepted n ⟨replyFrame, some s.chans.length⟩), (now + 9, 0, .ret n .ok)] ++
          [(now + 9, 0, .taken ⟨replyFrame, some s.chans.length⟩)]⟩, ?_, ?_⟩
  · simp only [round, TSys.run, e0, e1, e2, e3, e4, Option.bind_some]
  · refine ⟨k1, k2, k3, k4, k5, k6, k7, k8, k9, rfl, rfl, rfl, by dsimp only; omega, ?_⟩
    intro t l o ho
    simp only [List.mem_append, List.mem_cons, List.not_mem_nil, or_false, Prod.mk.injEq] at ho
    rcases ho with (ho | ⟨_, _, rfl⟩ | ⟨_, _, rfl⟩) | ⟨_, _, rfl⟩
    · exact h14 t l o ho
    · simp [Spec.Transmits]
    · simp [Spec.Transmits]
    · simp [Spec.Transmits]

open Ex in
theorem quiet_rounds : ∀ n, ∃ x, (TSys.init tcfg 0).run tcfg (rounds n) = some x ∧ Quiet x n
  | 0 => ⟨_, rfl, by
      refine ⟨rfl, rfl, rfl, rfl, rfl, rfl, rfl, rfl, rfl, rfl, rfl, rfl, rfl, ?_⟩
      intro t l o h; cases h⟩
  | n + 1 => by
    obtain ⟨x, h1, h2⟩ := quiet_rounds n
    obtain ⟨x', h3, h4⟩ := quiet_round h2
    exact ⟨x', by rw [rounds, trun_append, h1]; exact h3, h4⟩

/-- **C29** is false as worded: the loop is never late, the connection is up, the write interval is 10, and yet for as long
as one likes nothing at all is transmitted, no heart-beat either: calls of `Subscribe` with a reply-to header restart the
write timer, and the frame is not sent. -/
theorem C29_false (n : Nat) : ∃ es x, (TSys.init Ex.tcfg 0).run Ex.tcfg es = some x ∧ Ex.tcfg.sys.writeTimeout = true ∧
    Ex.tcfg.write = 10 ∧ ¬ Spec.Ending x.sys ∧ x.sys.closed = false ∧ n ≤ x.now ∧ x.late = 0 ∧
    ∀ t l o, (t, l, o) ∈ x.log → ¬ Spec.Transmits o := by
  obtain ⟨x, h1, h2⟩ := quiet_rounds n
  refine ⟨Ex.rounds n, x, h1, rfl, rfl, ?_, h2.closed, by have := h2.now; omega, h2.late, h2.log⟩
  rw [ending_iff, h2.loop]
  simp [LoopPc.ended]

/-! ## Examples -/

namespace Ex

/-- Both timers: a write interval of 10, a read interval of 25. -/
def tcfgBoth : TCfg := { sys := { cfgPlain with readTimeout := true, writeTimeout := true }, read := 25, write := 10 }

/-- Three beats, 10 apart, with a SEND between the second and the third; a heart-beat of the server at time 5. -/
def beats : List TEv :=
  [.delay 5, .step (.net none), .step (.loopRead []), .delay 5, .step (.loopBeat true []),
   .delay 6, .step (.call (.send b!"/q" [] b!"x" [])), .step (.thread 0), .step (.thread 0), .step (.loopWrite true []),
   .delay 10, .step (.loopBeat true []), .delay 4]

def endBeats : TSys := ((TSys.init tcfgBoth 0).run tcfgBoth beats).getD (TSys.init tcfgBoth 0)

/-- The times of the transmissions. -/
def sentAt (x : TSys) : List Nat := x.log.filterMap fun e => if e.2.2.sends then some e.1 else none

/-- A heart-beat of the server at time 20 is not looked at until time 30. -/
def busy : List TEv := [.delay 10, .step (.loopBeat true []), .delay 10, .step (.loopBeat true []), .step (.net none), .delay 5, .delay 5]

def endBusy : TSys := ((TSys.init tcfgBoth 0).run tcfgBoth busy).getD (TSys.init tcfgBoth 0)

end Ex

open Ex in
theorem beats_run : (TSys.init tcfgBoth 0).run tcfgBoth beats = some endBeats := by
  have h : ((TSys.init tcfgBoth 0).run tcfgBoth beats).isSome = true := by decide +kernel
  obtain ⟨x, hx⟩ := Option.isSome_iff_exists.1 h
  simp only [endBeats, hx, Option.getD_some]

open Ex in
theorem busy_run : (TSys.init tcfgBoth 0).run tcfgBoth busy = some endBusy := by
  have h : ((TSys.init tcfgBoth 0).run tcfgBoth busy).isSome = true := by decide +kernel
  obtain ⟨x, hx⟩ := Option.isSome_iff_exists.1 h
  simp only [endBusy, hx, Option.getD_some]

/-- The hypotheses of `C29_write_partial` hold, and the conclusion at time 30, four after the last beat. -/
example : (TSys.init Ex.tcfgBoth 0).run Ex.tcfgBoth Ex.beats = some Ex.endBeats ∧ Ex.tcfgBoth.sys.writeTimeout = true ∧
    ¬ Spec.Ending Ex.endBeats.sys ∧ (∀ r, Obs.taken r ∈ Ex.endBeats.sys.trace → ¬ Spec.TempQueue r.frame) ∧
    Ex.sentAt Ex.endBeats = [10, 16, 26] ∧ Ex.endBeats.now = 30 ∧ Ex.endBeats.late = 0 := by
  refine ⟨beats_run, rfl, ?_, ?_, by decide +kernel, by decide +kernel, by decide +kernel⟩
  · rw [ending_iff]; decide +kernel
  · have h : (Ex.endBeats.sys.trace.all fun o => match o with
        | .taken r => !decide (Spec.TempQueue r.frame)
        | _ => true) = true := by decide +kernel
    intro r hr
    have := List.all_eq_true.1 h _ hr
    simpa using this

/-- The bound is attained: just before the beat at time 26, exactly 10 have passed since the SEND. -/
example : ((TSys.init Ex.tcfgBoth 0).run Ex.tcfgBoth (Ex.beats.take 11)).map (fun x => (x.now, Ex.sentAt x, x.late)) =
    some (26, [10, 16], 0) := by decide +kernel

/-- The hypotheses of `C29_read` and `C29_received`: at time 30 a read timeout is declared, 25 after the only heart-beat of
the server. At time 29 it cannot be. -/
example : (Ex.endBeats.step Ex.tcfgBoth (.step (.loopTimeout []))).isSome = true ∧
    ((TSys.init Ex.tcfgBoth 0).run Ex.tcfgBoth (Ex.beats.take 12 ++ [.delay 3, .step (.loopTimeout [])])).isNone = true ∧
    (5, 0, Obs.took none) ∈ Ex.endBeats.log ∧ (5, 0, Obs.read none) ∈ Ex.endBeats.log := by decide +kernel

/-- A loop that is late may declare a read timeout although it finds a heart-beat in `readCh` (the third case of
`C29_received`), and the delay counts as late because the heart-beat was there (`C29_late`). -/
example : (Ex.endBusy.step Ex.tcfgBoth (.step (.loopTimeout []))).isSome = true ∧ (20, 0, Obs.read none) ∈ Ex.endBusy.log ∧
    Ex.endBusy.now = 30 ∧ Ex.endBusy.late = 10 := by decide +kernel

/-- Three rounds of `C29_false`: at time 27 nothing has been sent. -/
example : ((TSys.init Ex.tcfg 0).run Ex.tcfg (Ex.rounds 3)).map (fun x => (x.now, Ex.sentAt x, x.late)) = some (27, [], 0) := by
  decide +kernel

end Stomp.Client
