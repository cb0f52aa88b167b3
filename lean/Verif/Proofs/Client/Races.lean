import Verif.Spec.ClientRaces
import Verif.Proofs.Client.Receipts
/-! # Accesses of the client's goroutines: what single steps do to `closeMutex` and `closed` -/
namespace Stomp.Client
open Stomp

/-- What a step does to `closeMutex`. -/
def Shift (s : Sys) (e : Ev) (s' : Sys) : Prop :=
  s'.mutex = s.mutex ∨ (∃ t, s'.mutex = none ∧ takesPart s e (.caller t) ∧ s.inside (.caller t) = true) ∨
    ∃ t, s.mutex = none ∧ s'.mutex = some t ∧ lockIn s e = some (.caller t)

theorem holds_inside {s : Sys} {t : Nat} {th : Thread} (ht : s.threads[t]? = some th) : s.inside (.caller t) = th.holds := by
  obtain ⟨c, p, h⟩ := th
  simp only [Sys.inside, ht, Thread.holds]
  cases p <;> cases c <;> rfl

theorem inside_mutex {s : Sys} (hi : LockInv s) (t : Nat) : s.inside (.caller t) = true ↔ s.mutex = some t := by
  constructor
  · intro h
    cases ht : s.threads[t]? with
    | none => simp [Sys.inside, ht] at h
    | some th => rw [holds_inside ht] at h; exact (hi.hold t th ht h).1
  · intro h
    obtain ⟨th, ht, hh⟩ := hi.held t h
    rw [holds_inside ht, hh]

theorem inside_of {s : Sys} {g : Goroutine} (h : s.inside g = true) : ∃ t, g = .caller t := by
  cases g with
  | caller t => exact ⟨t, rfl⟩
  | _ => cases h

theorem frameDone_mutex (s : Sys) (t : Nat) (c : Call) (r : Res) :
    (s.frameDone t c r).mutex = s.mutex ∧ (s.frameDone t c r).closed = s.closed := by
  unfold Sys.frameDone
  repeat' split
  all_goals exact ⟨rfl, rfl⟩

theorem closeChan_mutex (s : Sys) (n : Nat) : (s.closeChan n).mutex = s.mutex ∧ (s.closeChan n).closed = s.closed := by
  unfold Sys.closeChan
  split <;> exact ⟨rfl, rfl⟩

theorem failWith_mutex {s s' : Sys} {x : Bytes} {o : List Nat} (h : s.failWith x o = some s') : s'.mutex = s.mutex ∧ s'.closed = s.closed := by
  unfold Sys.failWith at h
  split at h
  · cases h; exact ⟨rfl, rfl⟩
  · cases h

theorem frameEnter_mutex {s s' : Sys} {t : Nat} {c : Call} {f : Frame} (h : s.frameEnter t c f = some s') :
    s.mutex = none ∧ (s'.mutex = none ∨ s'.mutex = some t) ∧ s'.closed = s.closed := by
  unfold Sys.frameEnter at h
  split at h
  · cases h
  rename_i hm
  have hm := isSome_false hm
  refine ⟨hm, ?_⟩
  repeat' split at h
  all_goals cases h
  · have := frameDone_mutex s.closeNet t c .closedUnexpectedly
    exact ⟨.inl (this.1.trans hm), this.2⟩
  · exact ⟨.inr rfl, rfl⟩
  · exact ⟨.inr rfl, rfl⟩

theorem begin_mutex {s s' : Sys} {t : Nat} {c : Call} (hc : ∀ i o, c ≠ .unsubscribe i o) (h : s.begin t c = some s') :
    s.mutex = none ∧ (s'.mutex = none ∨ s'.mutex = some t) ∧ (s'.closed = s.closed ∨ c = .mustDisconnect ∧ s.closed = false) := by
  have hm : ¬ s.mutex.isSome = true → s.mutex = none := isSome_false
  unfold Sys.begin at h
  repeat' split at h
  all_goals first
    | contradiction
    | exact absurd rfl (hc _ _)
    | (have := frameEnter_mutex h; exact ⟨this.1, this.2.1, .inl this.2.2⟩)
    | skip
  all_goals cases h
  all_goals sysgrind

theorem push_mutex {cfg : Cfg} {s s' : Sys} {t : Nat} {c : Call} {r : Req} (h : s.push cfg t c r = some s') :
    (s'.mutex = s.mutex ∨ s'.mutex = none) ∧ s'.closed = s.closed := by
  unfold Sys.push at h
  dsimp only at h
  repeat' split at h
  all_goals first
    | contradiction
    | cases h
  all_goals sysgrind

theorem waitClosed_mutex {s s' : Sys} {t n : Nat} {c : Call} (h : s.waitClosed t c n = some s') : s'.mutex = s.mutex ∧ s'.closed = s.closed := by
  unfold Sys.waitClosed at h
  repeat' split at h
  all_goals first
    | contradiction
    | cases h
  all_goals first
    | exact ⟨rfl, rfl⟩
    | exact frameDone_mutex _ _ _ _

theorem unsub_mutex {cfg : Cfg} {s s' : Sys} {t i : Nat} {th : Thread} {b : Sub} (h : s.unsub cfg t th i b = some s') :
    s'.mutex = s.mutex ∧ s'.closed = s.closed := by
  unfold Sys.unsub at h
  repeat' split at h
  all_goals first
    | contradiction
    | (cases h; exact ⟨rfl, rfl⟩)

theorem helper_mutex {s s' : Sys} {t : Nat} (h : s.helper t = some s') : s'.mutex = s.mutex ∧ s'.closed = s.closed := by
  unfold Sys.helper at h
  repeat' split at h
  all_goals first
    | contradiction
    | (cases h; exact ⟨rfl, rfl⟩)

theorem subStep_mutex {s s' : Sys} {i : Nat} (h : s.subStep i = some s') : s'.mutex = s.mutex ∧ s'.closed = s.closed := by
  unfold Sys.subStep at h
  repeat' split at h
  all_goals first
    | contradiction
    | (cases h; exact ⟨rfl, rfl⟩)

theorem loopRead_mutex {s s' : Sys} {o : List Nat} (h : s.loopRead o = some s') : s'.mutex = s.mutex ∧ s'.closed = s.closed := by
  unfold Sys.loopRead at h
  dsimp only at h
  repeat' split at h
  all_goals first
    | contradiction
    | exact failWith_mutex h
    | exact ⟨(failWith_mutex h).1, (failWith_mutex h).2⟩
    | (cases h; exact ⟨rfl, rfl⟩)

theorem takeReq_mutex (s : Sys) (r : Req) (rest : List Req) : (s.takeReq r rest).1.mutex = s.mutex ∧ (s.takeReq r rest).1.closed = s.closed := by
  unfold Sys.takeReq
  dsimp only
  split
  · exact closeChan_mutex _ _
  · exact ⟨rfl, rfl⟩

theorem loopWrite_mutex {s s' : Sys} {k : Bool} {o : List Nat} (h : s.loopWrite k o = some s') : s'.mutex = s.mutex ∧ s'.closed = s.closed := by
  unfold Sys.loopWrite at h
  split at h
  · split at h
    · exact failWith_mutex h
    · cases h
  · rename_i r rest _
    have key := takeReq_mutex s r rest
    rcases htr : s.takeReq r rest with ⟨s1, _ | f⟩
    all_goals rw [htr] at h key
    all_goals dsimp only at h key
    · cases h; exact key
    · repeat' split at h
      · cases h
      · cases h; exact key
      · have := failWith_mutex h
        exact ⟨this.1.trans key.1, this.2.trans key.2⟩

theorem loopBeat_mutex {cfg : Cfg} {s s' : Sys} {k : Bool} {o : List Nat} (h : s.loopBeat cfg k o = some s') : s'.mutex = s.mutex ∧ s'.closed = s.closed := by
  unfold Sys.loopBeat at h
  repeat' split at h
  all_goals first
    | contradiction
    | exact failWith_mutex h
    | (cases h; exact ⟨rfl, rfl⟩)

theorem finish_mutex {s s' : Sys} (h : s.finish = some s') : s.mutex = none ∧ s'.mutex = s.mutex := by
  have hm : ¬ s.mutex.isSome = true → s.mutex = none := isSome_false
  unfold Sys.finish at h
  repeat' split at h
  all_goals first
    | contradiction
    | skip
  all_goals cases h
  all_goals sysgrind

theorem thread_start {s : Sys} {t : Nat} {th : Thread} (ht : s.threads[t]? = some th) (hpc : th.pc = .start) (hc : ∀ i o, th.call ≠ .unsubscribe i o) :
    lockIn s (.thread t) = some (.caller t) := by
  obtain ⟨c, p, h⟩ := th
  subst hpc
  simp only [lockIn, ht]

theorem thread_lock {s : Sys} {t : Nat} {th : Thread} {f : Frame} (ht : s.threads[t]? = some th) (hpc : th.pc = .lock f) :
    lockIn s (.thread t) = some (.caller t) := by
  obtain ⟨c, p, h⟩ := th
  subst hpc
  simp only [lockIn, ht]

theorem shift_enter {s s' : Sys} {e : Ev} {t : Nat} (h : s.mutex = none) (h' : s'.mutex = none ∨ s'.mutex = some t) (hl : lockIn s e = some (.caller t)) :
    Shift s e s' := by
  rcases h' with h' | h'
  · exact .inl (h'.trans h.symm)
  · exact .inr (.inr ⟨t, h, h', hl⟩)

theorem begin_unsub {s s' : Sys} {t i : Nat} {o : List SubOpt} (h : s.begin t (.unsubscribe i o) = some s') : s'.mutex = s.mutex ∧ s'.closed = s.closed := by
  unfold Sys.begin at h
  dsimp only at h
  repeat' split at h
  all_goals first
    | contradiction
    | (cases h; exact ⟨rfl, rfl⟩)

theorem shift_thread {cfg : Cfg} {s s' : Sys} {t : Nat} (h : s.thread cfg t = some s') : Shift s (.thread t) s' := by
  unfold Sys.thread at h
  split at h
  · cases h
  rename_i th ht
  split at h
  · rename_i hpc
    by_cases hc : ∀ i o, th.call ≠ .unsubscribe i o
    · have := begin_mutex hc h
      exact shift_enter this.1 this.2.1 (thread_start ht hpc hc)
    · simp only [Classical.not_forall, Classical.not_not] at hc
      obtain ⟨i, o, hc⟩ := hc
      rw [hc] at h
      exact .inl (begin_unsub h).1
  · rename_i hpc
    have := frameEnter_mutex h
    exact shift_enter this.1 this.2.1 (thread_lock ht hpc)
  · rename_i hpc
    rcases (push_mutex h).1 with h' | h'
    · exact .inl h'
    · refine .inr (.inl ⟨t, h', .inl rfl, ?_⟩)
      rw [holds_inside ht, Thread.holds, hpc]
  · exact .inl (waitClosed_mutex h).1
  · cases h
  · repeat' split at h
    all_goals first
      | contradiction
      | exact .inl (unsub_mutex h).1

theorem shift_timeout {cfg : Cfg} {s s' : Sys} {t : Nat} (h : s.timeout cfg t = some s') : Shift s (.timeout t) s' := by
  unfold Sys.timeout at h
  split at h
  · cases h
  rename_i th ht
  repeat' split at h
  all_goals first
    | contradiction
    | (cases h; exact .inl (frameDone_mutex _ _ _ _).1)
    | (cases h; exact .inl rfl)
    | (cases h; exact .inr (.inl ⟨t, rfl, .inl rfl, by rw [holds_inside ht]; simp [Thread.holds, *]⟩))

/-- Who gets the frame, and what it does to `closeMutex` and `closed`. -/
theorem handOver_mutex {s s' : Sys} {n : Nat} {f : Frame} {b : Bool} (h : s.handOver n f b = some s') :
    (s'.mutex = s.mutex ∧ s'.closed = s.closed) ∨ ∃ t c th, s.chans[n]? = some ⟨.caller t, c⟩ ∧ s.threads[t]? = some th ∧ th.holds = true ∧ s'.mutex = none ∧
      (s'.closed = s.closed ∨ th.call = .disconnect ∧ th.pc = .wait n) := by
  unfold Sys.handOver at h
  split at h
  · cases h
  · rename_i t c hn
    repeat' split at h
    all_goals first
      | contradiction
      | skip
    rename_i th ht hpc
    cases h
    unfold Sys.response
    dsimp only
    split
    · rename_i hcall
      exact .inr ⟨t, c, th, hn, ht, by simp [Thread.holds, hpc, hcall], rfl, .inl rfl⟩
    · rename_i hcall
      split
      · exact .inr ⟨t, c, th, hn, ht, by simp [Thread.holds, hpc, hcall], rfl, .inr ⟨hcall, hpc⟩⟩
      · exact .inr ⟨t, c, th, hn, ht, by simp [Thread.holds, hpc, hcall], rfl, .inl rfl⟩
    · exact .inl (frameDone_mutex _ _ _ _)
  · repeat' split at h
    all_goals first
      | contradiction
      | (cases h; exact .inl ⟨rfl, rfl⟩)

theorem deliver_cases {s s' : Sys} {b : Bool} (h : s.deliver b = some s') :
    (s'.mutex = s.mutex ∧ s'.closed = s.closed) ∨ ∃ t th n, s.receiver = some (.caller t) ∧ s.threads[t]? = some th ∧ th.holds = true ∧ s'.mutex = none ∧
      (s'.closed = s.closed ∨ th.call = .disconnect ∧ th.pc = .wait n) := by
  unfold Sys.deliver at h
  split at h
  case h_5 => cases h
  all_goals rename_i hl
  all_goals split at h
  all_goals first
    | (cases h; exact .inl ⟨rfl, rfl⟩)
    | skip
  all_goals obtain ⟨s1, h1, rfl⟩ := Option.map_eq_some_iff.1 h
  all_goals rcases handOver_mutex h1 with ⟨h2, h3⟩ | ⟨t, c, th, hn, ht, hh, h2, h3⟩
  all_goals first
    | exact .inl ⟨h2, h3⟩
    | exact .inl ⟨(closeChan_mutex _ _).1.trans h2, (closeChan_mutex _ _).2.trans h3⟩
    | exact .inr ⟨t, th, _, by simp only [Sys.receiver, hl, hn], ht, hh, h2, h3⟩
    | exact .inr ⟨t, th, _, by simp only [Sys.receiver, hl, hn], ht, hh, (closeChan_mutex _ _).1.trans h2, h3.imp (fun h => (closeChan_mutex _ _).2.trans h) id⟩

theorem shift_step {cfg : Cfg} {s s' : Sys} {e : Ev} (h : s.step cfg e = some s') : Shift s e s' := by
  unfold Sys.step at h
  split at h
  · cases h
  cases e with
  | thread t => exact shift_thread h
  | timeout t => exact shift_timeout h
  | helper t => exact .inl (helper_mutex h).1
  | deliver b =>
    rcases deliver_cases h with h1 | ⟨t, th, n, hr, ht, hh, hm, _⟩
    · exact .inl h1.1
    · exact .inr (.inl ⟨t, hm, .inr ⟨⟨b, rfl⟩, hr⟩, by rw [holds_inside ht, hh]⟩)
  | finish => exact .inl (finish_mutex h).2
  | sub i => exact .inl (subStep_mutex h).1
  | _ =>
    dsimp only at h
    repeat' split at h
    all_goals first
      | contradiction
      | exact .inl (loopRead_mutex h).1
      | exact .inl (loopWrite_mutex h).1
      | exact .inl (loopBeat_mutex h).1
      | exact .inl (failWith_mutex h).1
      | (cases h; exact .inl rfl)

theorem lockIn_free {cfg : Cfg} {s s' : Sys} {e : Ev} {g : Goroutine} (h : s.step cfg e = some s') (hl : lockIn s e = some g) : s.mutex = none ∧ e.goroutine = g := by
  unfold Sys.step at h
  split at h
  · cases h
  cases e with
  | thread t =>
    dsimp only at h
    unfold Sys.thread at h
    split at h
    · cases h
    rename_i th ht
    obtain ⟨c, p, hp⟩ := th
    simp only [lockIn, ht] at hl
    cases p with
    | start =>
      by_cases hc : ∀ i o, c ≠ .unsubscribe i o
      · refine ⟨(begin_mutex hc h).1, ?_⟩
        cases c <;> first | exact absurd rfl (hc _ _) | (simp only [Option.some.injEq] at hl; exact hl)
      · simp only [Classical.not_forall, Classical.not_not] at hc
        obtain ⟨i, o, rfl⟩ := hc
        simp at hl
    | lock f => simp only [Option.some.injEq] at hl; exact ⟨(frameEnter_mutex h).1, hl⟩
    | _ => simp at hl
  | finish => cases hl; exact ⟨(finish_mutex h).1, rfl⟩
  | _ => cases hl

/-- Whoever accesses `closed` takes part in the step and has the mutex, or locks it in the step. -/
theorem closedIn_critical {s : Sys} {e : Ev} {g : Goroutine} {w : Bool} (h : (g, w) ∈ closedIn s e) :
    takesPart s e g ∧ (lockIn s e = some g ∨ s.inside g = true) := by
  cases e with
  | thread t =>
    refine ⟨.inl ?_, .inl ?_⟩
    all_goals
      simp only [closedIn, lockIn, Ev.goroutine] at h ⊢
      cases ht : s.threads[t]? with
      | none => rw [ht] at h; cases h
      | some th =>
        obtain ⟨c, p, hp⟩ := th
        rw [ht] at h
        cases p <;> cases c <;> first | (cases h; done) | (simp only [List.mem_singleton, Prod.mk.injEq] at h; simp [h.1])
  | timeout t =>
    simp only [closedIn] at h
    split at h
    · rename_i ht
      simp only [List.mem_singleton, Prod.mk.injEq] at h
      rw [h.1]
      exact ⟨.inl rfl, .inr (by rw [holds_inside ht]; rfl)⟩
    · cases h
  | deliver b =>
    simp only [closedIn] at h
    split at h
    · rename_i hr
      split at h
      · rename_i ht
        simp only [List.mem_singleton, Prod.mk.injEq] at h
        rw [h.1]
        exact ⟨.inr ⟨⟨b, rfl⟩, hr⟩, .inr (by rw [holds_inside ht]; rfl)⟩
      · cases h
    · cases h
  | finish =>
    refine ⟨.inl ?_, .inl ?_⟩
    all_goals
      simp only [closedIn] at h
      split at h
      all_goals
        simp only [List.mem_singleton, Prod.mk.injEq] at h
        rw [h.1]
        rfl
  | _ => cases h

/-- `closed` changes only in steps that are said to write it. -/
theorem closed_written {cfg : Cfg} {s s' : Sys} {e : Ev} (h : s.step cfg e = some s') (hc : s'.closed ≠ s.closed) : ∃ g, (g, true) ∈ closedIn s e := by
  unfold Sys.step at h
  split at h
  · cases h
  cases e with
  | thread t =>
    dsimp only at h
    unfold Sys.thread at h
    split at h
    · cases h
    rename_i th ht
    obtain ⟨c, p, hp⟩ := th
    split at h
    · by_cases hu : ∀ i o, c ≠ .unsubscribe i o
      · rcases (begin_mutex hu h).2.2 with h1 | ⟨rfl, h1⟩
        · exact absurd h1 hc
        · rename_i hpc
          cases hpc
          exact ⟨.caller t, by simp [closedIn, ht, h1]⟩
      · simp only [Classical.not_forall, Classical.not_not] at hu
        obtain ⟨i, o, rfl⟩ := hu
        exact absurd (begin_unsub h).2 hc
    · exact absurd (frameEnter_mutex h).2.2 hc
    · exact absurd (push_mutex h).2 hc
    · exact absurd (waitClosed_mutex h).2 hc
    · cases h
    · repeat' split at h
      all_goals first
        | contradiction
        | exact absurd (unsub_mutex h).2 hc
  | timeout t =>
    dsimp only at h
    unfold Sys.timeout at h
    split at h
    · cases h
    rename_i th ht
    obtain ⟨c, p, hp⟩ := th
    repeat' split at h
    all_goals first
      | contradiction
      | (cases h; exact absurd (frameDone_mutex _ _ _ _).2 hc)
      | (cases h; exact absurd rfl hc)
      | exact ⟨.caller t, by simp_all [closedIn]⟩
  | helper t => exact absurd (helper_mutex h).2 hc
  | deliver b =>
    rcases deliver_cases h with h1 | ⟨t, th, n, hr, ht, hh, hm, h1 | h1⟩
    · exact absurd h1.2 hc
    · exact absurd h1 hc
    · obtain ⟨c, p, hp⟩ := th
      obtain ⟨rfl, rfl⟩ := h1
      exact ⟨.caller t, by simp [closedIn, hr, ht]⟩
  | finish =>
    refine ⟨.loop, ?_⟩
    dsimp only at h
    unfold Sys.finish at h
    repeat' split at h
    all_goals first
      | contradiction
      | (cases h; exact absurd rfl hc)
      | simp_all [closedIn]
  | sub i => exact absurd (subStep_mutex h).2 hc
  | _ =>
    dsimp only at h
    repeat' split at h
    all_goals first
      | contradiction
      | exact absurd (loopRead_mutex h).2 hc
      | exact absurd (loopWrite_mutex h).2 hc
      | exact absurd (loopBeat_mutex h).2 hc
      | exact absurd (failWith_mutex h).2 hc
      | (cases h; exact absurd rfl hc)

end Stomp.Client
