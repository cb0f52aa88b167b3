import Verif.Model.Client.System
/-! # Who holds `closeMutex`, and what follows for `closed` and `writeCh` -/
namespace Stomp.Client
open Stomp

/-- The caller has `closeMutex` locked. -/
def Thread.holds (th : Thread) : Bool :=
  match th.pc, th.call with
  | .push _, _ => true
  | .wait _, .send .. => true
  | .wait _, .disconnect => true
  | _, _ => false

structure LockInv (s : Sys) : Prop where
  wc : s.writeClosed = true → s.closed = true
  hold : ∀ t th, s.threads[t]? = some th → th.holds = true → s.mutex = some t ∧ s.closed = false
  held : ∀ t, s.mutex = some t → ∃ th, s.threads[t]? = some th ∧ th.holds = true
  panic : s.crashed ≠ some .sendWriteCh ∧ s.crashed ≠ some .closeWriteCh

theorem closeStep_panic {b : Sub} {p : ClosePc} {e : Panic} (h : closeStep b p = .panic e) :
    e = .sendC ∨ e = .closeC := by
  unfold closeStep at h
  repeat' split at h
  all_goals first
    | contradiction
    | (cases h; simp)

/-- `grind` with the small state-changing functions of the model unfolded. -/
macro "sysgrind" : tactic => `(tactic| grind [Thread.holds, Sys.goto, Sys.ret, Sys.log, Sys.unlock, Sys.lock,
  Sys.crash, Sys.markClosed, Sys.closeNet, Sys.newChan, Sys.setSub, Sys.setHelper, Sys.frameDone, Sys.handOut,
  Sys.closeChan, → closeStep_panic])

theorem lock_congr {s s' : Sys} (hi : LockInv s) (h1 : s'.writeClosed = s.writeClosed) (h2 : s'.closed = s.closed)
    (h3 : s'.threads = s.threads) (h4 : s'.mutex = s.mutex)
    (h5 : s'.crashed ≠ some .sendWriteCh ∧ s'.crashed ≠ some .closeWriteCh) : LockInv s' := by
  obtain ⟨wc, hold, hs, hp⟩ := hi
  constructor
  · rw [h1, h2]; exact wc
  · rw [h2, h3, h4]; exact hold
  · rw [h3, h4]; exact hs
  · exact h5

theorem lock_panic {s : Sys} {b : Sub} {p : ClosePc} {e : Panic} (hi : LockInv s) (h : closeStep b p = .panic e) :
    LockInv (s.crash e) :=
  lock_congr hi rfl rfl rfl rfl (by
    have := closeStep_panic h
    rcases this with rfl | rfl <;> simp [Sys.crash])

theorem lock_frameDone {s : Sys} {t : Nat} {th : Thread} {r : Res} (hi : LockInv s)
    (ht : s.threads[t]? = some th) (hn : th.holds = false) : LockInv (s.frameDone t th.call r) := by
  obtain ⟨wc, hold, hs, hp⟩ := hi
  unfold Sys.frameDone
  repeat' split
  all_goals constructor <;> sysgrind

theorem lock_frameEnter {s s' : Sys} {t : Nat} {th : Thread} {f : Frame} (hi : LockInv s)
    (ht : s.threads[t]? = some th) (hn : th.holds = false)
    (h : s.frameEnter t th.call f = some s') : LockInv s' := by
  unfold Sys.frameEnter at h
  split at h
  · cases h
  split at h
  · simp only [Option.some.injEq] at h
    subst h
    exact lock_frameDone (s := s.closeNet) ⟨hi.wc, hi.hold, hi.held, hi.panic⟩ ht hn
  obtain ⟨wc, hold, hs, hp⟩ := hi
  split at h
  all_goals simp only [Option.some.injEq] at h
  all_goals subst h
  all_goals constructor <;> sysgrind

theorem lock_begin {s s' : Sys} {t : Nat} {th : Thread} (hi : LockInv s) (ht : s.threads[t]? = some th)
    (hpc : th.pc = .start) (h : s.begin t th.call = some s') : LockInv s' := by
  have hi' := hi
  have hn : th.holds = false := by simp [Thread.holds, hpc]
  obtain ⟨wc, hold, hs, hp⟩ := hi
  unfold Sys.begin at h
  repeat' split at h
  all_goals first
    | contradiction
    | exact lock_frameEnter hi' ht hn h
    | simp only [Option.some.injEq] at h
  all_goals subst h
  all_goals constructor <;> sysgrind

theorem lock_push {cfg : Cfg} {s s' : Sys} {t : Nat} {th : Thread} {r : Req} (hi : LockInv s)
    (ht : s.threads[t]? = some th) (hpc : th.pc = .push r) (h : s.push cfg t th.call r = some s') : LockInv s' := by
  have hn : th.holds = true := by simp [Thread.holds, hpc]
  obtain ⟨wc, hold, hs, hp⟩ := hi
  unfold Sys.push at h
  dsimp only at h
  repeat' split at h
  all_goals first
    | contradiction
    | simp only [Option.some.injEq] at h
  all_goals subst h
  all_goals constructor <;> sysgrind

theorem lock_waitClosed {s s' : Sys} {t n : Nat} {th : Thread} (hi : LockInv s) (ht : s.threads[t]? = some th)
    (hpc : th.pc = .wait n) (h : s.waitClosed t th.call n = some s') : LockInv s' := by
  have hi' := hi
  obtain ⟨wc, hold, hs, hp⟩ := hi
  unfold Sys.waitClosed at h
  repeat' split at h
  all_goals first
    | contradiction
    | simp only [Option.some.injEq] at h
  all_goals subst h
  all_goals first
    | exact lock_frameDone hi' ht (by grind [Thread.holds])
    | (constructor <;> sysgrind)

theorem lock_goto {s s' : Sys} {t : Nat} {th : Thread} {g : Thread → Thread} (hi : LockInv s)
    (ht : s.threads[t]? = some th) (hn : th.holds = false) (hg : (g th).holds = false)
    (h1 : s'.writeClosed = s.writeClosed) (h2 : s'.closed = s.closed)
    (h3 : s'.threads = s.threads.modify t g) (h4 : s'.mutex = s.mutex)
    (h5 : s'.crashed = s.crashed) : LockInv s' := by
  obtain ⟨wc, hold, hs, hp⟩ := hi
  constructor <;> grind

theorem lock_unsub {cfg : Cfg} {s s' : Sys} {t i : Nat} {th : Thread} {b : Sub} (hi : LockInv s)
    (ht : s.threads[t]? = some th) (hn : th.holds = false) (h : s.unsub cfg t th i b = some s') : LockInv s' := by
  unfold Sys.unsub at h
  repeat' split at h
  all_goals first
    | contradiction
    | simp only [Option.some.injEq] at h
  all_goals subst h
  all_goals first
    | exact lock_goto hi ht hn rfl rfl rfl rfl rfl rfl
    | exact lock_panic hi (by assumption)
    | exact lock_congr hi rfl rfl rfl rfl (by simp [Sys.crash])
    | (obtain ⟨wc, hold, hs, hp⟩ := hi; constructor <;> sysgrind)

theorem lock_thread {cfg : Cfg} {s s' : Sys} {t : Nat} (hi : LockInv s)
    (h : s.thread cfg t = some s') : LockInv s' := by
  unfold Sys.thread at h
  split at h
  · cases h
  rename_i th ht
  split at h
  · exact lock_begin hi ht (by assumption) h
  · exact lock_frameEnter hi ht (by simp [Thread.holds, *]) h
  · exact lock_push hi ht (by assumption) h
  · exact lock_waitClosed hi ht (by assumption) h
  · cases h
  · repeat' split at h
    all_goals first
      | contradiction
      | exact lock_unsub hi ht (by grind [Thread.holds]) h

theorem lock_timeout {cfg : Cfg} {s s' : Sys} {t : Nat} (hi : LockInv s) (h : s.timeout cfg t = some s') :
    LockInv s' := by
  have hi' := hi
  obtain ⟨wc, hold, hs, hp⟩ := hi
  unfold Sys.timeout at h
  repeat' split at h
  all_goals first
    | contradiction
    | simp only [Option.some.injEq] at h
  all_goals subst h
  all_goals first
    | exact lock_frameDone hi' (by assumption) (by grind [Thread.holds])
    | (constructor <;> sysgrind)

theorem lock_helper {s s' : Sys} {t : Nat} (hi : LockInv s) (h : s.helper t = some s') : LockInv s' := by
  obtain ⟨wc, hold, hs, hp⟩ := hi
  unfold Sys.helper at h
  repeat' split at h
  all_goals first
    | contradiction
    | simp only [Option.some.injEq] at h
  all_goals subst h
  all_goals constructor <;> sysgrind

theorem lock_response {s : Sys} {t : Nat} {th : Thread} {f : Frame} {b : Bool} (hi : LockInv s)
    (ht : s.threads[t]? = some th) {n : Nat} (hn : th.pc = .wait n) : LockInv (s.response t th.call f b) := by
  have hi' := hi
  obtain ⟨wc, hold, hs, hp⟩ := hi
  unfold Sys.response
  dsimp only
  split
  · constructor <;> sysgrind
  · split <;> constructor <;> sysgrind
  · exact lock_frameDone hi' ht (by grind [Thread.holds])

theorem lock_handOver {s s' : Sys} {n : Nat} {f : Frame} {b : Bool} (hi : LockInv s)
    (h : s.handOver n f b = some s') : LockInv s' := by
  unfold Sys.handOver at h
  repeat' split at h
  all_goals first
    | contradiction
    | simp only [Option.some.injEq] at h
  all_goals subst h
  · exact lock_response hi (by assumption) (by assumption)
  · exact ⟨hi.wc, hi.hold, hi.held, hi.panic⟩

theorem lock_closeChan {s : Sys} {n : Nat} (hi : LockInv s) : LockInv (s.closeChan n) := by
  have := hi.panic
  unfold Sys.closeChan
  split
  · exact lock_congr hi rfl rfl rfl rfl (by simp [Sys.crash])
  · exact lock_congr hi rfl rfl rfl rfl this

theorem lock_deliver {s s' : Sys} {b : Bool} (hi : LockInv s) (h : s.deliver b = some s') : LockInv s' := by
  unfold Sys.deliver at h
  repeat' split at h
  all_goals first
    | contradiction
    | (simp only [Option.some.injEq] at h; subst h; exact lock_congr hi rfl rfl rfl rfl (by simp [Sys.crash]))
    | (obtain ⟨s1, h1, rfl⟩ := Option.map_eq_some_iff.1 h
       have h2 := lock_handOver hi h1
       first
         | exact lock_closeChan (lock_congr h2 rfl rfl rfl rfl h2.panic)
         | exact lock_congr h2 rfl rfl rfl rfl h2.panic)

theorem lock_finish {s s' : Sys} (hi : LockInv s) (h : s.finish = some s') : LockInv s' := by
  obtain ⟨wc, hold, hs, hp⟩ := hi
  unfold Sys.finish at h
  repeat' split at h
  all_goals first
    | contradiction
    | simp only [Option.some.injEq] at h
  all_goals subst h
  all_goals constructor <;> sysgrind

theorem lock_failWith {s s' : Sys} {x : Bytes} {o : List Nat} (hi : LockInv s) (h : s.failWith x o = some s') :
    LockInv s' := by
  unfold Sys.failWith at h
  split at h
  · simp only [Option.some.injEq] at h; subst h; exact lock_congr hi rfl rfl rfl rfl hi.panic
  · cases h

theorem lock_loopRead {s s' : Sys} {o : List Nat} (hi : LockInv s) (h : s.loopRead o = some s') : LockInv s' := by
  unfold Sys.loopRead at h
  dsimp only at h
  repeat' split at h
  all_goals first
    | contradiction
    | exact lock_failWith hi h
    | (refine lock_failWith (lock_congr hi ?_ ?_ ?_ ?_ ?_) h <;> first | rfl | exact hi.panic)
    | (simp only [Option.some.injEq] at h; subst h; exact lock_congr hi rfl rfl rfl rfl hi.panic)

theorem lock_takeReq {s : Sys} {r : Req} {rest : List Req} (hi : LockInv s) : LockInv (s.takeReq r rest).1 := by
  unfold Sys.takeReq
  dsimp only
  split
  · exact lock_closeChan (lock_congr hi rfl rfl rfl rfl hi.panic)
  · exact lock_congr hi rfl rfl rfl rfl hi.panic

theorem lock_loopWrite {s s' : Sys} {k : Bool} {o : List Nat} (hi : LockInv s) (h : s.loopWrite k o = some s') :
    LockInv s' := by
  unfold Sys.loopWrite at h
  split at h
  · split at h
    · exact lock_failWith hi h
    · cases h
  · rename_i r rest _
    have key := lock_takeReq (r := r) (rest := rest) hi
    rcases htr : s.takeReq r rest with ⟨s1, _ | f⟩
    all_goals rw [htr] at h key
    all_goals dsimp only at h key
    · simp only [Option.some.injEq] at h; subst h; exact key
    · repeat' split at h
      · cases h
      · simp only [Option.some.injEq] at h; subst h; exact lock_congr key rfl rfl rfl rfl key.panic
      · exact lock_failWith (s := s1.log _) (lock_congr key rfl rfl rfl rfl key.panic) h

theorem lock_subStep {s s' : Sys} {i : Nat} (hi : LockInv s) (h : s.subStep i = some s') : LockInv s' := by
  unfold Sys.subStep at h
  repeat' split at h
  all_goals first
    | contradiction
    | simp only [Option.some.injEq] at h
  all_goals subst h
  all_goals first
    | exact lock_congr hi rfl rfl rfl rfl hi.panic
    | exact lock_panic hi (by assumption)
    | exact lock_congr hi rfl rfl rfl rfl (by simp [Sys.crash])

theorem lock_step {cfg : Cfg} {s s' : Sys} {e : Ev} (hi : LockInv s) (h : s.step cfg e = some s') : LockInv s' := by
  unfold Sys.step at h
  split at h
  · cases h
  rename_i hc
  have hc : s.crashed = none := by simpa using hc
  cases e with
  | thread t => exact lock_thread hi h
  | timeout t => exact lock_timeout hi h
  | helper t => exact lock_helper hi h
  | deliver b => exact lock_deliver hi h
  | finish => exact lock_finish hi h
  | sub i => exact lock_subStep hi h
  | loopRead o => dsimp only at h; split at h; exact lock_loopRead hi h; cases h
  | loopWrite k o => dsimp only at h; split at h; exact lock_loopWrite hi h; cases h
  | loopTimeout o => dsimp only at h; split at h; exact lock_failWith hi h; cases h
  | loopBeat k o =>
    dsimp only [Sys.loopBeat] at h
    repeat' split at h
    all_goals first
      | contradiction
      | exact lock_failWith hi h
      | (simp only [Option.some.injEq] at h; subst h; exact lock_congr hi rfl rfl rfl rfl hi.panic)
  | call c =>
    dsimp only at h
    split at h
    · simp only [Option.some.injEq] at h
      subst h
      obtain ⟨wc, hold, hs, hp⟩ := hi
      constructor <;> sysgrind
    · cases h
  | _ =>
    dsimp only at h
    repeat' split at h
    all_goals first
      | contradiction
      | (simp only [Option.some.injEq] at h; subst h; exact lock_congr hi rfl rfl rfl rfl hi.panic)

theorem lock_init (n : Nat) : LockInv (Sys.init n) := by
  constructor <;> simp [Sys.init]

/-- Induction over a run, the property of the state reached being kept by every step. -/
theorem run_induction {cfg : Cfg} {P : Sys → Prop} (hstep : ∀ s e s', P s → s.step cfg e = some s' → P s') :
    ∀ (es : List Ev) (s s' : Sys), P s → s.run cfg es = some s' → P s' := by
  intro es
  induction es with
  | nil => intro s s' hp h; cases h; exact hp
  | cons e es ih =>
    intro s s' hp h
    unfold Sys.run at h
    obtain ⟨s1, h1, h2⟩ := Option.bind_eq_some_iff.1 h
    exact ih s1 s' (hstep s e s1 hp h1) h2

theorem lock_run {cfg : Cfg} {s s' : Sys} {es : List Ev} (hi : LockInv s) (h : s.run cfg es = some s') :
    LockInv s' := run_induction (fun _ _ _ => lock_step) es s s' hi h

end Stomp.Client
