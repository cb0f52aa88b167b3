import Verif.Proofs.Client.Told
import Verif.Proofs.Client.Reads
import Verif.Model.Client.Timer
/-! # Timers: invariants of timed executions -/
namespace Stomp.Client
open Stomp

/-- A step as far as it reads from the network, or takes what was read. -/
inductive REff (s s' : Sys) : Prop
  | quiet (l : List Obs) (ht : s'.trace = s.trace ++ l) (hc : s'.readCh = s.readCh) (hl : readIn l = [] ∧ tookIn l = [])
  | net {x : Option Frame} (ht : s'.trace = s.trace ++ [.read x]) (hc : s'.readCh = s.readCh ++ [x])
  | took {x : Option Frame} (ht : s'.trace = s.trace ++ [.took x]) (hc : s.readCh = x :: s'.readCh)

theorem rq_same {s s' : Sys} (ht : s'.trace = s.trace) (hc : s'.readCh = s.readCh) : REff s s' :=
  .quiet [] (by rw [ht, List.append_nil]) hc ⟨rfl, rfl⟩

/-- Neither read nor taken. -/
def RQuiet (s s' : Sys) : Prop := ∃ l, s'.trace = s.trace ++ l ∧ s'.readCh = s.readCh ∧ readIn l = [] ∧ tookIn l = []

theorem RQuiet.trans {s s1 s2 : Sys} (h1 : RQuiet s s1) (h2 : RQuiet s1 s2) : RQuiet s s2 := by
  obtain ⟨l, a, b, c, d⟩ := h1
  obtain ⟨l', a', b', c', d'⟩ := h2
  exact ⟨l ++ l', by rw [a', a, List.append_assoc], b'.trans b, by rw [readIn_append, c, c']; rfl, by rw [tookIn_append, d, d']; rfl⟩

theorem RQuiet.eff {s s' : Sys} (h : RQuiet s s') : REff s s' := by
  obtain ⟨l, a, b, c⟩ := h
  exact .quiet l a b c

theorem rquiet_of {s s' : Sys} (l : List Obs) (ht : s'.trace = s.trace ++ l) (hc : s'.readCh = s.readCh)
    (hl : readIn l = [] ∧ tookIn l = []) : RQuiet s s' := ⟨l, ht, hc, hl⟩

theorem rquiet_same {s s' : Sys} (ht : s'.trace = s.trace) (hc : s'.readCh = s.readCh) : RQuiet s s' :=
  ⟨[], by rw [ht, List.append_nil], hc, rfl, rfl⟩

theorem rquiet_frameDone (s : Sys) (t : Nat) (c : Call) (r : Res) : RQuiet s (s.frameDone t c r) := by
  obtain ⟨pc, hcore, _, _, _, ⟨_, _, htr⟩ | ⟨_, _, htr⟩⟩ := frameDone_spec s t c r
  · exact rquiet_of _ htr hcore.readCh ⟨rfl, rfl⟩
  · exact rquiet_same htr hcore.readCh

theorem rquiet_handOver {s s1 : Sys} {n : Nat} {f : Frame} {b : Bool} (h : s.handOver n f b = some s1) : RQuiet s s1 := by
  cases handOver_cases h with
  | frame => exact rquiet_frameDone _ _ _ _
  | send => exact rquiet_of _ rfl rfl ⟨rfl, rfl⟩
  | discOk => exact rquiet_of _ rfl rfl ⟨rfl, rfl⟩
  | discErr => exact rquiet_of _ rfl rfl ⟨rfl, rfl⟩
  | sub => exact rquiet_same rfl rfl

theorem reff_step {cfg : Cfg} {s s' : Sys} (h : Step cfg s s') : REff s s' := by
  cases h with
  | early => exact .quiet _ rfl rfl ⟨rfl, rfl⟩
  | frameClosed => exact (RQuiet.trans (s := s) (s1 := s.closeNet) (rquiet_same rfl rfl) (rquiet_frameDone _ _ _ _)).eff
  | unsubOption => exact .quiet _ rfl rfl ⟨rfl, rfl⟩
  | unsubDone => exact .quiet _ rfl rfl ⟨rfl, rfl⟩
  | mustGo => exact .quiet _ rfl rfl ⟨rfl, rfl⟩
  | @pushWait t th r => exact .quiet [.accepted t r] rfl rfl ⟨rfl, rfl⟩
  | @pushRet t th r => exact .quiet [.accepted t r, .ret t .ok] (List.append_assoc _ [Obs.accepted t r] _) rfl ⟨rfl, rfl⟩
  | @pushSub t th r n =>
    have sp := handOut_spec { s with writeCh := s.writeCh ++ [r], trace := s.trace ++ [.accepted t r] } n
    exact .quiet [.accepted t r, .ret t .ok]
      ((congrArg (· ++ [Obs.ret t .ok]) sp.2.1).trans (List.append_assoc _ [Obs.accepted t r] _)) sp.1.readCh ⟨rfl, rfl⟩
  | @pushFrameWait t th r => exact .quiet [.accepted t r] rfl rfl ⟨rfl, rfl⟩
  | @pushFrameRet t th r =>
    exact (RQuiet.trans (s1 := Sys.unlock { s with writeCh := s.writeCh ++ [r], trace := s.trace ++ [.accepted t r] })
      (rquiet_of [.accepted t r] rfl rfl ⟨rfl, rfl⟩) (rquiet_frameDone _ _ _ _)).eff
  | waitClosed => exact (rquiet_frameDone _ _ _ _).eff
  | frameTimeout => exact (rquiet_frameDone _ _ _ _).eff
  | unsub ht hcall hb hpc h =>
    obtain ⟨hcore, ⟨h1, h2, _⟩ | ⟨_, pc, hp, h1, hpast, ⟨_, h2⟩ | ⟨r, _, h2⟩⟩⟩ := unsub_spec h
    · exact rq_same h2 hcore.readCh
    · exact rq_same h2 hcore.readCh
    · exact .quiet _ h2 hcore.readCh ⟨rfl, rfl⟩
  | sendTimeout => exact .quiet _ rfl rfl ⟨rfl, rfl⟩
  | receiptTimeout => exact .quiet _ rfl rfl ⟨rfl, rfl⟩
  | disconnectTimeout => exact .quiet _ rfl rfl ⟨rfl, rfl⟩
  | helper ht hcall hb h =>
    obtain ⟨hcore, h2, _⟩ := helper_spec h
    exact rq_same h2 hcore.readCh
  | net => exact .net rfl rfl
  | readSkip hl hr => exact .took rfl hr
  | readReceipt hl hr => exact .took rfl hr
  | readMissing hl hr => exact .took rfl hr
  | readErr hl hr => exact .took rfl hr
  | readMessage hl hr => exact .took rfl hr
  | @takeQuiet r rest =>
    have sp := takeReq_spec s r rest
    exact .quiet _ sp.2.2.2.2.2.2.2.2.2.1 sp.2.2.2.2.1 ⟨rfl, rfl⟩
  | @takeSent r rest f =>
    have sp := takeReq_spec s r rest
    have h1 : RQuiet s (s.takeReq r rest).1 := rquiet_of _ sp.2.2.2.2.2.2.2.2.2.1 sp.2.2.2.2.1 ⟨rfl, rfl⟩
    exact RQuiet.eff (h1.trans (rquiet_of [.sent f] rfl rfl ⟨rfl, rfl⟩))
  | @takeFail r rest f =>
    have sp := takeReq_spec s r rest
    have h1 : RQuiet s (s.takeReq r rest).1 := rquiet_of _ sp.2.2.2.2.2.2.2.2.2.1 sp.2.2.2.2.1 ⟨rfl, rfl⟩
    exact RQuiet.eff (h1.trans (rquiet_of [.failed f] rfl rfl ⟨rfl, rfl⟩))
  | beat => exact .quiet [.beat] rfl rfl ⟨rfl, rfl⟩
  | @giveReceipt f id n b s1 hl hc h1 =>
    have sp := closeChan_spec { s1 with channels := s1.channels.del id, loop := .select } n
    exact RQuiet.eff ((rquiet_handOver h1).trans (rquiet_same sp.2.2.2.2.2.2.2.2.2.1 sp.2.2.2.2.1))
  | giveMessage hl hc h1 => exact RQuiet.eff ((rquiet_handOver h1).trans (rquiet_same rfl rfl))
  | @giveErr f n l b s1 hl hc h1 =>
    have sp := closeChan_spec { s1 with loop := .errs f l } n
    exact RQuiet.eff ((rquiet_handOver h1).trans (rquiet_same sp.2.2.2.2.2.2.2.2.2.1 sp.2.2.2.2.1))
  | giveFail hl hc h1 => exact RQuiet.eff ((rquiet_handOver h1).trans (rquiet_same rfl rfl))
  | sub h =>
    obtain ⟨hcore, h2, _⟩ := subStep_spec h
    exact rq_same h2 hcore.readCh
  | _ => exact rq_same rfl rfl


theorem frameDone_readCh (s : Sys) (t : Nat) (c : Call) (r : Res) : (s.frameDone t c r).readCh = s.readCh := by
  obtain ⟨_, h, _⟩ := frameDone_spec s t c r
  exact h.readCh

theorem thread_readCh {cfg : Cfg} {s s' : Sys} {t : Nat} (h : s.thread cfg t = some s') : s'.readCh = s.readCh := by
  unfold Sys.thread at h
  split at h
  · cases h
  rename_i th ht
  have hf : ∀ {f : Frame}, s.frameEnter t th.call f = some s' → s'.readCh = s.readCh := by
    intro f h
    unfold Sys.frameEnter at h
    repeat' split at h
    all_goals first
      | contradiction
      | simp only [Option.some.injEq] at h
    all_goals subst h
    · exact frameDone_readCh _ _ _ _
    · rfl
    · rfl
  split at h
  · cases hcall : th.call with
    | frame f => exact hf (f := f) (by rw [hcall] at h ⊢; exact h)
    | _ =>
      rw [hcall] at h
      simp only [Sys.begin] at h
      repeat' split at h
      all_goals first
        | contradiction
        | simp only [Option.some.injEq] at h
      all_goals subst h
      all_goals rfl
  · exact hf h
  · unfold Sys.push at h
    split at h
    · simp only [Option.some.injEq] at h; subst h; rfl
    split at h
    · dsimp only at h
      split at h
      all_goals first
        | contradiction
        | simp only [Option.some.injEq] at h
      all_goals subst h
      all_goals first
        | rfl
        | exact frameDone_readCh _ _ _ _
        | exact (handOut_spec _ _).1.readCh
    · cases h
  · unfold Sys.waitClosed at h
    repeat' split at h
    all_goals first
      | contradiction
      | simp only [Option.some.injEq] at h
    all_goals subst h
    · rfl
    · rfl
    · exact frameDone_readCh _ _ _ _
  · cases h
  · repeat' split at h
    all_goals first
      | contradiction
      | exact (unsub_spec h).1.readCh

theorem handOver_readCh {s s1 : Sys} {n : Nat} {f : Frame} {b : Bool} (h : s.handOver n f b = some s1) : s1.readCh = s.readCh := by
  obtain ⟨_, _, h, _⟩ := rquiet_handOver h
  exact h

theorem timeout_readCh {cfg : Cfg} {s s' : Sys} {t : Nat} (h : s.timeout cfg t = some s') : s'.readCh = s.readCh := by
  unfold Sys.timeout at h
  split at h
  · cases h
  repeat' split at h
  all_goals first
    | contradiction
    | simp only [Option.some.injEq] at h
  all_goals subst h
  all_goals first
    | rfl
    | exact frameDone_readCh _ _ _ _

theorem failWith_eff {s s' : Sys} {x : Bytes} {o : List Nat} (h : s.failWith x o = some s') :
    s'.readCh = s.readCh ∧ s'.trace = s.trace ∧ s'.loop = .fail (errFrame x) o := by
  unfold Sys.failWith at h
  split at h
  · simp only [Option.some.injEq] at h; subst h; exact ⟨rfl, rfl, rfl⟩
  · cases h

theorem deliver_readCh {s s' : Sys} {b : Bool} (h : s.deliver b = some s') : s'.readCh = s.readCh := by
  unfold Sys.deliver at h
  repeat' split at h
  all_goals first
    | contradiction
    | (simp only [Option.some.injEq] at h; subst h; rfl)
    | skip
  all_goals
    obtain ⟨s1, h1, h2⟩ := Option.map_eq_some_iff.1 h
    subst h2
    have hk : s1.readCh = s.readCh := handOver_readCh h1
    first
      | exact hk
      | exact (closeChan_spec _ _).2.2.2.2.1.trans hk

/-- The case of `writeCh`: the channel was closed, the request is not for the server, the frame was written, or the write
failed. -/
theorem loopWrite_cases {s s' : Sys} {ok : Bool} {o : List Nat} (h : s.loopWrite ok o = some s') :
    s'.readCh = s.readCh ∧
    ((s'.loop.ended = true) ∨
     (s'.loop = s.loop ∧ ∃ r, s'.trace = s.trace ++ [.taken r] ∧ Spec.TempQueue r.frame) ∨
     (s'.loop = s.loop ∧ ∃ r f, s'.trace = s.trace ++ [.taken r, .sent f])) := by
  unfold Sys.loopWrite at h
  split at h
  · split at h
    · obtain ⟨h1, h2, h3⟩ := failWith_eff h
      exact ⟨h1, .inl (by rw [h3]; rfl)⟩
    · cases h
  · rename_i r rest hw
    have sp := takeReq_spec s r rest
    have h2 : (s.takeReq r rest).2 = Spec.wire r.frame := handleWrite_wire _ _
    split at h
    · rename_i s1 he
      rw [he] at sp h2
      simp only [Option.some.injEq] at h
      subst h
      refine ⟨sp.2.2.2.2.1, .inr (.inl ⟨sp.2.2.2.2.2.1, r, sp.2.2.2.2.2.2.2.2.2.1, ?_⟩)⟩
      unfold Spec.wire at h2
      split at h2
      · assumption
      · split at h2 <;> cases h2
    · rename_i s1 f he
      rw [he] at sp h2
      split at h
      · split at h
        · cases h
        · simp only [Option.some.injEq] at h
          subst h
          refine ⟨sp.2.2.2.2.1, .inr (.inr ⟨sp.2.2.2.2.2.1, r, f, ?_⟩)⟩
          show s1.trace ++ [.sent f] = _
          rw [sp.2.2.2.2.2.2.2.2.2.1, List.append_assoc]; rfl
      · obtain ⟨h3, h4, h5⟩ := failWith_eff h
        exact ⟨h3.trans sp.2.2.2.2.1, .inl (by rw [h5]; rfl)⟩

theorem loopBeat_cases {cfg : Cfg} {s s' : Sys} {ok : Bool} {o : List Nat} (h : s.loopBeat cfg ok o = some s') :
    s'.readCh = s.readCh ∧ (s'.loop.ended = true ∨ (s'.loop = s.loop ∧ s'.trace = s.trace ++ [.beat])) := by
  unfold Sys.loopBeat at h
  split at h
  · split at h
    · split at h
      · cases h
      · simp only [Option.some.injEq] at h; subst h; exact ⟨rfl, .inr ⟨rfl, rfl⟩⟩
    · obtain ⟨h3, h4, h5⟩ := failWith_eff h
      exact ⟨h3, .inl (by rw [h5]; rfl)⟩
  · cases h

/-- Only the case of `readCh` receives from `readCh`. -/
theorem keep_readCh {cfg : Cfg} {s s' : Sys} {e : Ev} (h : s.step cfg e = some s') (he : ∀ o, e ≠ .loopRead o) :
    s'.readCh = s.readCh ∨ ∃ f, s'.readCh = s.readCh ++ [f] := by
  unfold Sys.step at h
  split at h
  · cases h
  cases e with
  | net f =>
    dsimp only at h
    repeat' split at h
    all_goals first
      | contradiction
      | simp only [Option.some.injEq] at h
    subst h
    exact .inr ⟨f, rfl⟩
  | loopRead o => exact absurd rfl (he o)
  | thread t => exact .inl (thread_readCh h)
  | timeout t => exact .inl (timeout_readCh h)
  | helper t => exact .inl (helper_spec h).1.readCh
  | sub i => exact .inl (subStep_spec h).1.readCh
  | deliver b => exact .inl (deliver_readCh h)
  | loopWrite ok o =>
    dsimp only at h
    split at h
    · exact .inl (loopWrite_cases h).1
    · cases h
  | loopBeat ok o =>
    dsimp only at h
    split at h
    · exact .inl (loopBeat_cases h).1
    · cases h
  | loopTimeout o =>
    dsimp only at h
    split at h
    · exact .inl (failWith_eff h).1
    · cases h
  | finish =>
    unfold Sys.finish at h
    dsimp only at h
    repeat' split at h
    all_goals first
      | contradiction
      | (simp only [Option.some.injEq] at h; subst h; exact .inl rfl)
  | _ =>
    dsimp only at h
    repeat' split at h
    all_goals first
      | contradiction
      | (simp only [Option.some.injEq] at h; subst h; exact .inl rfl)

/-! ## Timed steps -/

theorem tstep_cases {c : TCfg} {x x' : TSys} {e : Ev} (h : x.step c (.step e) = some x') :
    ∃ r w s l, x.timers e = some (r, w) ∧ x.sys.step c.sys e = some s ∧ s.trace = x.sys.trace ++ l ∧
      x' = TSys.arm c { x with
        sys := s, readTimer := r, writeTimer := w, log := x.log ++ l.map fun o => (x.now, x.late, o) } := by
  simp only [TSys.step] at h
  split at h
  · rename_i r w s h1 h2
    obtain ⟨l, hl⟩ := (ext_step (step_cases h2).2).trace
    refine ⟨r, w, s, l, h1, h2, hl, ?_⟩
    simp only [Option.some.injEq] at h
    rw [← h, hl, List.drop_left]
  · cases h

theorem arm_same (c : TCfg) (x : TSys) : (x.arm c).sys = x.sys ∧ (x.arm c).now = x.now ∧ (x.arm c).late = x.late ∧ (x.arm c).log = x.log := by
  unfold TSys.arm
  split <;> exact ⟨rfl, rfl, rfl, rfl⟩

theorem arm_read (c : TCfg) (x : TSys) :
    (x.arm c).readTimer = x.readTimer ∨ (x.readTimer = none ∧ (x.arm c).readTimer = some (x.now + c.read)) := by
  unfold TSys.arm
  split
  · dsimp only
    split
    · rename_i h; exact .inr ⟨h.2, rfl⟩
    · exact .inl rfl
  · exact .inl rfl

theorem arm_write (c : TCfg) (x : TSys) :
    ((x.arm c).writeTimer = x.writeTimer ∧ (x.sys.loop = .select → c.sys.writeTimeout = true → x.writeTimer ≠ none)) ∨
      (x.writeTimer = none ∧ (x.arm c).writeTimer = some (x.now + c.write)) := by
  unfold TSys.arm
  split
  · dsimp only
    split
    · rename_i h; exact .inr ⟨h.2, rfl⟩
    · rename_i h; exact .inl ⟨rfl, fun _ h1 h2 => h ⟨h1, h2⟩⟩
  · rename_i h; exact .inl ⟨rfl, fun h1 => absurd h1 h⟩

/-- The log is the trace of the system with time stamps that are not in the future. -/
structure LogInv (x : TSys) : Prop where
  trace : x.log.map (·.2.2) = x.sys.trace
  stamps : ∀ t l o, (t, l, o) ∈ x.log → t ≤ x.now ∧ l ≤ x.late

theorem log_step {c : TCfg} {x x' : TSys} {e : TEv} (hi : LogInv x) (h : x.step c e = some x') : LogInv x' := by
  cases e with
  | delay d =>
    simp only [TSys.step, Option.some.injEq] at h
    subst h
    refine ⟨hi.trace, fun t l o h => ?_⟩
    have := hi.stamps t l o h
    dsimp only
    split <;> omega
  | step e =>
    obtain ⟨r, w, s, l, h1, h2, h3, rfl⟩ := tstep_cases h
    have ha := arm_same c { x with
        sys := s, readTimer := r, writeTimer := w, log := x.log ++ l.map fun o => (x.now, x.late, o) }
    constructor
    · rw [ha.2.2.2, ha.1]
      dsimp only
      rw [h3, List.map_append, hi.trace, List.map_map]
      congr 1
      exact List.map_id _
    · intro t k o ho
      rw [ha.2.2.2] at ho
      rw [ha.2.1, ha.2.2.1]
      rcases List.mem_append.1 ho with ho | ho
      · exact hi.stamps t k o ho
      · obtain ⟨o', _, e⟩ := List.mem_map.1 ho
        cases e
        exact ⟨Nat.le_refl _, Nat.le_refl _⟩

theorem trun_induct {c : TCfg} {P : TSys → Prop} (hs : ∀ x x' e, P x → x.step c e = some x' → P x') :
    ∀ (es : List TEv) {x x' : TSys}, P x → x.run c es = some x' → P x'
  | [], x, x', hp, h => by simp only [TSys.run, Option.some.injEq] at h; exact h ▸ hp
  | e :: es, x, x', hp, h => by
    simp only [TSys.run] at h
    obtain ⟨x1, h1, h2⟩ := Option.bind_eq_some_iff.1 h
    exact trun_induct hs es (hs x x1 e hp h1) h2

theorem init_same (c : TCfg) (n : Nat) : (TSys.init c n).sys = Sys.init n ∧ (TSys.init c n).now = 0 ∧ (TSys.init c n).late = 0 ∧
    (TSys.init c n).log = [] := arm_same c _

theorem log_init (c : TCfg) (n : Nat) : LogInv (TSys.init c n) := by
  obtain ⟨h1, h2, h3, h4⟩ := init_same c n
  constructor
  · rw [h4, h1]; rfl
  · intro t l o h; rw [h4] at h; cases h

theorem log_run {c : TCfg} {n : Nat} {es : List TEv} {x : TSys} (h : (TSys.init c n).run c es = some x) : LogInv x :=
  trun_induct (fun _ _ _ => log_step) es (log_init c n) h

/-! ## The write timer -/

/-- Something goes over the wire: a frame or a heart-beat. -/
def Obs.sends : Obs → Bool
  | .sent _ | .beat => true
  | _ => false

/-- No request for a temporary queue was taken. -/
def NoTemp (tr : List Obs) : Prop := ∀ r, Obs.taken r ∈ tr → ¬ Spec.TempQueue r.frame

/-- The write timer runs, and was set at the time of the last transmission (or of the start) at the latest. -/
def WInv (c : TCfg) (x : TSys) : Prop :=
  x.sys.loop.ended = false → NoTemp x.sys.trace →
    ∃ dl t l, x.writeTimer = some dl ∧ ((t = 0 ∧ l = 0) ∨ ∃ o, (t, l, o) ∈ x.log ∧ o.sends = true) ∧
      l ≤ x.late ∧ dl ≤ t + c.write ∧ x.now + l ≤ dl + x.late

theorem not_ended {cfg : Cfg} {s s' : Sys} {e : Ev} (h : s.step cfg e = some s') (he : s'.loop.ended = false) : s.loop.ended = false :=
  Bool.eq_false_iff.2 fun hc => by rw [ended_step (step_cases h).2 hc] at he; cases he

theorem winv_step {c : TCfg} (hc : c.sys.writeTimeout = true) {x x' : TSys} {e : TEv} (hi : WInv c x)
    (h : x.step c e = some x') : WInv c x' := by
  cases e with
  | delay d =>
    simp only [TSys.step, Option.some.injEq] at h
    subst h
    intro h1 h2
    obtain ⟨dl, t, l, h3, h4, h5, h6, h7⟩ := hi h1 h2
    refine ⟨dl, t, l, h3, h4, ?_⟩
    dsimp only
    split
    · rename_i hid
      simp only [TSys.idle, decide_eq_true_eq] at hid
      have := hid.2.2.2.2.2.2 dl h3
      omega
    · omega
  | step e =>
    obtain ⟨r, w, s, l, h1, h2, h3, rfl⟩ := tstep_cases h
    generalize hy : ({ x with
        sys := s, readTimer := r, writeTimer := w, log := x.log ++ l.map fun o => (x.now, x.late, o) } : TSys) = y
    have ha := arm_same c y
    have hw := arm_write c y
    intro k1 k2
    rw [ha.1] at k1 k2
    have k1' : s.loop.ended = false := by rw [← hy] at k1; exact k1
    have k2' : NoTemp s.trace := by rw [← hy] at k2; exact k2
    have hlog : y.log = x.log ++ l.map fun o => (x.now, x.late, o) := by rw [← hy]
    have hnow : y.now = x.now := by rw [← hy]
    have hlate : y.late = x.late := by rw [← hy]
    have hwt : y.writeTimer = w := by rw [← hy]
    rw [ha.2.2.2, ha.2.1, ha.2.2.1, hlog, hnow, hlate]
    -- the timer is not touched
    have keep : w = x.writeTimer → ∃ dl t k, (y.arm c).writeTimer = some dl ∧
        ((t = 0 ∧ k = 0) ∨ ∃ o, (t, k, o) ∈ x.log ++ l.map (fun o => (x.now, x.late, o)) ∧ o.sends = true) ∧
        k ≤ x.late ∧ dl ≤ t + c.write ∧ x.now + k ≤ dl + x.late := by
      intro hw'
      obtain ⟨dl, t, k, g1, g2, g3⟩ := hi (not_ended h2 k1') (fun r hr => k2' r (by rw [h3]; exact List.mem_append_left _ hr))
      refine ⟨dl, t, k, ?_, ?_, g3⟩
      · rcases hw with hw | hw
        · rw [hw.1, hwt, hw', g1]
        · rw [hwt, hw', g1] at hw; cases hw.1
      · rcases g2 with g2 | ⟨o, g2, g4⟩
        · exact .inl g2
        · exact .inr ⟨o, List.mem_append_left _ g2, g4⟩
    -- the timer is set anew
    have anew : w = none → s.loop = .select → (∃ o, o ∈ l ∧ o.sends = true) → ∃ dl t k, (y.arm c).writeTimer = some dl ∧
        ((t = 0 ∧ k = 0) ∨ ∃ o, (t, k, o) ∈ x.log ++ l.map (fun o => (x.now, x.late, o)) ∧ o.sends = true) ∧
        k ≤ x.late ∧ dl ≤ t + c.write ∧ x.now + k ≤ dl + x.late := by
      rintro hw' hl ⟨o, ho, hs⟩
      refine ⟨x.now + c.write, x.now, x.late, ?_, .inr ⟨o, ?_, hs⟩, Nat.le_refl _, Nat.le_refl _, by omega⟩
      · rcases hw with hw | hw
        · exact absurd (hwt.trans hw') (hw.2 (by rw [← hy]; exact hl) hc)
        · rw [hw.2, hnow]
      · exact List.mem_append_right _ (List.mem_map.2 ⟨o, ho, rfl⟩)
    cases e with
    | loopWrite ok o =>
      simp only [TSys.timers, Option.some.injEq, Prod.mk.injEq] at h1
      simp only [Sys.step] at h2
      split at h2
      · cases h2
      split at h2
      · rename_i hsel
        rcases (loopWrite_cases h2).2 with g | ⟨g1, r', g2, g3⟩ | ⟨g1, r', f, g2⟩
        · rw [g] at k1'; cases k1'
        · exact absurd g3 (k2' r' (by rw [g2]; simp))
        · refine anew h1.2.symm (g1.trans hsel) ⟨.sent f, ?_, rfl⟩
          have := List.append_cancel_left (h3.symm.trans g2)
          rw [this]; simp
      · cases h2
    | loopBeat ok o =>
      simp only [TSys.timers] at h1
      split at h1
      · simp only [Option.some.injEq, Prod.mk.injEq] at h1
        simp only [Sys.step] at h2
        split at h2
        · cases h2
        split at h2
        · rename_i hsel
          rcases (loopBeat_cases h2).2 with g | ⟨g1, g2⟩
          · rw [g] at k1'; cases k1'
          · refine anew h1.2.symm (g1.trans hsel) ⟨.beat, ?_, rfl⟩
            have := List.append_cancel_left (h3.symm.trans g2)
            rw [this]; simp
        · cases h2
      · cases h1
    | loopTimeout o =>
      simp only [TSys.timers] at h1
      split at h1
      · simp only [Option.some.injEq, Prod.mk.injEq] at h1
        exact keep h1.2.symm
      · cases h1
    | _ =>
      simp only [TSys.timers, Option.some.injEq, Prod.mk.injEq] at h1
      exact keep h1.2.symm

theorem winv_init {c : TCfg} (hc : c.sys.writeTimeout = true) (n : Nat) : WInv c (TSys.init c n) := by
  intro _ _
  obtain ⟨h1, h2, h3, h4⟩ := init_same c n
  refine ⟨c.write, 0, 0, ?_, .inl ⟨rfl, rfl⟩, by omega, by omega, by omega⟩
  show (if c.sys.writeTimeout ∧ (none : Option Nat) = none then some (0 + c.write) else none) = _
  rw [if_pos ⟨hc, rfl⟩, Nat.zero_add]

/-! ## The read timer -/

/-- The read timer, if it runs, runs for the whole interval after everything that was taken from `readCh`; what was read
after that is still in `readCh`. -/
structure RInv (c : TCfg) (x : TSys) : Prop where
  start : ∀ dl, x.readTimer = some dl → c.read ≤ dl
  took : ∀ t l f, (t, l, Obs.took f) ∈ x.log → ∀ dl, x.readTimer = some dl → t + c.read ≤ dl
  read : ∀ t l f, (t, l, Obs.read f) ∈ x.log → (∀ dl, x.readTimer = some dl → t + c.read ≤ dl) ∨
    (x.sys.readCh ≠ [] ∧ (t = x.now ∨ l < x.late))

theorem took_loopRead {cfg : Cfg} {s s' : Sys} {e : Ev} {l : List Obs} {f : Option Frame} (h : s.step cfg e = some s')
    (ht : s'.trace = s.trace ++ l) (hf : Obs.took f ∈ l) : ∃ o, e = .loopRead o := by
  by_cases he : ∃ o, e = .loopRead o
  · exact he
  · exfalso
    have hk := keep_readCh h (fun o ho => he ⟨o, ho⟩)
    cases reff_step (step_cases h).2 with
    | quiet l' ht' hc hl =>
      have := List.append_cancel_left (ht.symm.trans ht')
      subst this
      have : f ∈ tookIn l := List.mem_filterMap.2 ⟨_, hf, rfl⟩
      rw [hl.2] at this; cases this
    | net ht' hc =>
      have := List.append_cancel_left (ht.symm.trans ht')
      subst this
      simp at hf
    | took ht' hc =>
      rcases hk with hk | ⟨g, hk⟩
      · have := congrArg List.length hc
        rw [hk] at this
        simp at this
      · have := congrArg List.length hc
        rw [hk] at this
        simp at this
        omega

theorem read_readCh {cfg : Cfg} {s s' : Sys} {e : Ev} {l : List Obs} {f : Option Frame} (h : s.step cfg e = some s')
    (ht : s'.trace = s.trace ++ l) (hf : Obs.read f ∈ l) : s'.readCh ≠ [] := by
  cases reff_step (step_cases h).2 with
  | quiet l' ht' hc hl =>
    have := List.append_cancel_left (ht.symm.trans ht')
    subst this
    have : f ∈ readIn l := List.mem_filterMap.2 ⟨_, hf, rfl⟩
    rw [hl.1] at this; cases this
  | net ht' hc => rw [hc]; simp
  | took ht' hc =>
    have := List.append_cancel_left (ht.symm.trans ht')
    subst this
    simp at hf

theorem rinv_step {c : TCfg} {x x' : TSys} {e : TEv} (hl : LogInv x) (hi : RInv c x) (h : x.step c e = some x') : RInv c x' := by
  cases e with
  | delay d =>
    simp only [TSys.step, Option.some.injEq] at h
    subst h
    refine ⟨hi.start, hi.took, fun t l f hf => ?_⟩
    have hs := hl.stamps t l _ hf
    rcases hi.read t l f hf with h1 | ⟨h1, h2⟩
    · exact .inl h1
    · refine .inr ⟨h1, ?_⟩
      have hid : x.idle d = false := by
        refine Bool.eq_false_iff.2 fun hid => ?_
        simp only [TSys.idle, decide_eq_true_eq] at hid
        exact h1 hid.2.1
      dsimp only
      rw [hid]
      simp only [Bool.false_eq_true, if_false]
      omega
  | step e =>
    obtain ⟨r, w, s, l, h1, h2, h3, rfl⟩ := tstep_cases h
    generalize hy : ({ x with
        sys := s, readTimer := r, writeTimer := w, log := x.log ++ l.map fun o => (x.now, x.late, o) } : TSys) = y
    have ha := arm_same c y
    have har := arm_read c y
    have hsys : y.sys = s := by rw [← hy]
    have hlog : y.log = x.log ++ l.map fun o => (x.now, x.late, o) := by rw [← hy]
    have hnow : y.now = x.now := by rw [← hy]
    have hlate : y.late = x.late := by rw [← hy]
    have hrt : y.readTimer = r := by rw [← hy]
    have hmem : ∀ {t k : Nat} {o : Obs}, (t, k, o) ∈ y.log → (t, k, o) ∈ x.log ∨ (t = x.now ∧ k = x.late ∧ o ∈ l) := by
      intro t k o ho
      rw [hlog] at ho
      rcases List.mem_append.1 ho with ho | ho
      · exact .inl ho
      · obtain ⟨o', h1, e⟩ := List.mem_map.1 ho
        cases e
        exact .inr ⟨rfl, rfl, h1⟩
    have hpast : ∀ {t k : Nat} {o : Obs}, (t, k, o) ∈ y.log → t ≤ x.now := by
      intro t k o ho
      rcases hmem ho with ho | ⟨rfl, _⟩
      · exact (hl.stamps _ _ _ ho).1
      · exact Nat.le_refl _
    -- a timer after this step is either the one before it or set now
    have hkey : ∀ dl, (y.arm c).readTimer = some dl → r = some dl ∨ (r = none ∧ dl = x.now + c.read) := by
      intro dl hd
      rcases har with har | ⟨har, har'⟩
      · exact .inl (by rw [← hrt, ← har]; exact hd)
      · rw [har', hnow, Option.some.injEq] at hd
        exact .inr ⟨by rw [← hrt]; exact har, hd.symm⟩
    have hr : r = x.readTimer ∨ (r = none ∧ ∃ o, e = .loopRead o) := by
      cases e with
      | loopRead o =>
        simp only [TSys.timers, Option.some.injEq, Prod.mk.injEq] at h1
        exact .inr ⟨h1.1.symm, o, rfl⟩
      | loopTimeout o | loopBeat ok o =>
        simp only [TSys.timers] at h1
        split at h1
        · simp only [Option.some.injEq, Prod.mk.injEq] at h1
          exact .inl h1.1.symm
        · cases h1
      | _ =>
        simp only [TSys.timers, Option.some.injEq, Prod.mk.injEq] at h1
        exact .inl h1.1.symm
    refine ⟨fun dl hd => ?_, fun t k f hf dl hd => ?_, fun t k f hf => ?_⟩
    · rcases hkey dl hd with hd | ⟨_, rfl⟩
      · rcases hr with hr | ⟨hr, _⟩
        · exact hi.start dl (hr ▸ hd)
        · rw [hr] at hd; cases hd
      · omega
    · rw [ha.2.2.2] at hf
      rcases hkey dl hd with hd | ⟨_, rfl⟩
      · rcases hmem hf with hf | ⟨rfl, _, hf⟩
        · rcases hr with hr | ⟨hr, _⟩
          · exact hi.took t k f hf dl (hr ▸ hd)
          · rw [hr] at hd; cases hd
        · obtain ⟨o, rfl⟩ := took_loopRead h2 h3 hf
          simp only [TSys.timers, Option.some.injEq, Prod.mk.injEq] at h1
          rw [← h1.1] at hd; cases hd
      · have := hpast hf; omega
    · rw [ha.2.2.2] at hf
      rw [ha.1, ha.2.1, ha.2.2.1, hsys, hnow, hlate]
      by_cases hn : r = none
      · refine .inl fun dl hd => ?_
        rcases hkey dl hd with hd | ⟨_, rfl⟩
        · rw [hn] at hd; cases hd
        · have := hpast hf; omega
      · have hr' : r = x.readTimer ∧ ∀ o, e ≠ .loopRead o := by
          rcases hr with hr | ⟨hr, _⟩
          · refine ⟨hr, fun o ho => hn ?_⟩
            subst ho
            simp only [TSys.timers, Option.some.injEq, Prod.mk.injEq] at h1
            exact h1.1.symm
          · exact absurd hr hn
        rcases hmem hf with hf | ⟨rfl, rfl, hf'⟩
        · rcases hi.read t k f hf with hg | ⟨hg, hg'⟩
          · refine .inl fun dl hd => ?_
            rcases hkey dl hd with hd | ⟨hd, _⟩
            · exact hg dl (hr'.1 ▸ hd)
            · exact absurd hd hn
          · refine .inr ⟨?_, hg'⟩
            rcases keep_readCh h2 hr'.2 with hk | ⟨g, hk⟩
            · rw [hk]; exact hg
            · rw [hk]; simp
        · exact .inr ⟨read_readCh h2 h3 hf', .inl rfl⟩

theorem rinv_init (c : TCfg) (n : Nat) : RInv c (TSys.init c n) := by
  obtain ⟨_, _, _, h4⟩ := init_same c n
  refine ⟨fun dl hd => ?_, fun t l f hf => ?_, fun t l f hf => ?_⟩
  · rcases arm_read c { sys := Sys.init n, now := 0, readTimer := none, writeTimer := none, late := 0, log := [] } with h | ⟨_, h⟩
    · rw [show (TSys.init c n).readTimer = none from h] at hd; cases hd
    · rw [show (TSys.init c n).readTimer = some (0 + c.read) from h] at hd
      cases hd; omega
  · rw [h4] at hf; cases hf
  · rw [h4] at hf; cases hf

theorem rinv_run {c : TCfg} {n : Nat} {es : List TEv} {x : TSys} (h : (TSys.init c n).run c es = some x) : RInv c x :=
  (trun_induct (P := fun x => LogInv x ∧ RInv c x) (fun _ _ _ hp hs => ⟨log_step hp.1 hs, rinv_step hp.1 hp.2 hs⟩) es
    ⟨log_init c n, rinv_init c n⟩ h).2

end Stomp.Client
