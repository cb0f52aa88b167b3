import Verif.Proofs.Client.Receipts
/-! # The steps of `Unsubscribe`, of its goroutine and of a subscription's `readLoop`, one constructor each -/
namespace Stomp.Client
open Stomp

/-- `closeChannel` goes on. -/
inductive CNext (b : Sub) : ClosePc → Sub → ClosePc → Prop
  | enterMsg {m : CMsg} (ho : b.once = .idle) : CNext b (.enter (some m)) { b with once := .running } (.put m)
  | enterNone (ho : b.once = .idle) : CNext b (.enter none) { b with once := .running } .store
  | put {m : CMsg} (hc : b.cClosed = false) (hl : b.buf.length < 16) :
      CNext b (.put m) { b with buf := b.buf ++ [m], got := b.got ++ [m] } .store
  | store : CNext b .store { b with state := .closed } .close
  | close (hc : b.cClosed = false) : CNext b .close { b with cClosed := true } .broadcast

/-- `closeChannel` returns. -/
inductive CFin (b : Sub) : ClosePc → Sub → Prop
  | skip {m : Option CMsg} (ho : b.once = .done) : CFin b (.enter m) b
  | broadcast : CFin b .broadcast { b with notified := b.tickets, once := .done }

/-- `closeChannel` panics. -/
inductive CPanic (b : Sub) : ClosePc → Panic → Prop
  | put {m : CMsg} (hc : b.cClosed = true) : CPanic b (.put m) .sendC
  | close (hc : b.cClosed = true) : CPanic b .close .closeC

theorem closeStep_next {b b' : Sub} {p p' : ClosePc} (h : closeStep b p = .next b' p') : CNext b p b' p' := by
  unfold closeStep at h
  repeat' split at h
  all_goals first
    | contradiction
    | (cases h; constructor <;> simp_all; done)

theorem closeStep_fin {b b' : Sub} {p : ClosePc} (h : closeStep b p = .fin b') : CFin b p b' := by
  unfold closeStep at h
  repeat' split at h
  all_goals first
    | contradiction
    | (cases h; constructor; done)
    | (cases h; exact .skip (by assumption))

theorem closeStep_cpanic {b : Sub} {p : ClosePc} {e : Panic} (h : closeStep b p = .panic e) : CPanic b p e := by
  unfold closeStep at h
  repeat' split at h
  all_goals first
    | contradiction
    | (cases h; constructor; assumption)

/-- `Unsubscribe` by caller `t` on subscription `i`. -/
inductive UStep (cfg : Cfg) (s : Sys) (t : Nat) (th : Thread) (i : Nat) (b : Sub) : Sys → Prop
  | closeCrash {p : ClosePc} {e : Panic} (hpc : th.pc = .closing p) (h : CPanic b p e) : UStep cfg s t th i b (s.crash e)
  | closeNext {p p' : ClosePc} {b' : Sub} (hpc : th.pc = .closing p) (h : CNext b p b' p') :
      UStep cfg s t th i b ((s.setSub i b').goto t (.closing p'))
  | closeFin {p : ClosePc} {b' : Sub} (hpc : th.pc = .closing p) (h : CFin b p b') :
      UStep cfg s t th i b ((s.setSub i b').ret t .closedUnexpectedly)
  | lock {r : Res} (hpc : th.pc = .subLock r) (hl : b.locked = false) :
      UStep cfg s t th i b ((s.setSub i { b with locked := true }).goto t (.check r))
  | done {r : Res} (hpc : th.pc = .check r) (hs : b.state = .closed) (hl : b.locked = true) :
      UStep cfg s t th i b ((s.setSub i { b with locked := false }).ret t r)
  | doneCrash {r : Res} (hpc : th.pc = .check r) (hs : b.state = .closed) (hl : b.locked = false) :
      UStep cfg s t th i b (s.crash .unlock)
  | timed {r : Res} (hpc : th.pc = .check r) (hs : b.state ≠ .closed) (hcfg : cfg.unsubTimeout = true) :
      UStep cfg s t th i b { s with threads := s.threads.modify t fun th => { th with pc := .select, helper := .start } }
  | wait {r : Res} (hpc : th.pc = .check r) (hs : b.state ≠ .closed) (hcfg : cfg.unsubTimeout = false) :
      UStep cfg s t th i b (s.goto t .condWait)
  | sleep (hpc : th.pc = .condWait) (hl : b.locked = true) :
      UStep cfg s t th i b ((s.setSub i { b with tickets := b.tickets + 1, locked := false }).goto t (.asleep b.tickets))
  | sleepCrash (hpc : th.pc = .condWait) (hl : b.locked = false) : UStep cfg s t th i b (s.crash .unlock)
  | wake {k : Nat} (hpc : th.pc = .asleep k) (hk : k < b.notified) : UStep cfg s t th i b (s.goto t .relock)
  | relock (hpc : th.pc = .relock) (hl : b.locked = false) :
      UStep cfg s t th i b ((s.setSub i { b with locked := true }).goto t (.check .ok))
  | selected (hpc : th.pc = .select) (hh : th.helper = .done) : UStep cfg s t th i b (s.goto t (.check .ok))
  | timedClosed (hpc : th.pc = .timedOut) (hs : b.state = .closed) : UStep cfg s t th i b (s.ret t .unsubTimeout)
  | timedOpen (hpc : th.pc = .timedOut) (hs : b.state ≠ .closed) : UStep cfg s t th i b (s.goto t .putTimeout)
  | putCrash (hpc : th.pc = .putTimeout) (hc : b.cClosed = true) : UStep cfg s t th i b (s.crash .sendC)
  | put (hpc : th.pc = .putTimeout) (hc : b.cClosed = false) (hl : b.buf.length < 16) :
      UStep cfg s t th i b
        ((s.setSub i { b with buf := b.buf ++ [.unsubTimeout], got := b.got ++ [.unsubTimeout] }).ret t .unsubTimeout)

theorem unsub_cases {cfg : Cfg} {s s' : Sys} {t : Nat} {th : Thread} {i : Nat} {b : Sub}
    (h : s.unsub cfg t th i b = some s') : UStep cfg s t th i b s' := by
  unfold Sys.unsub at h
  split at h
  · split at h
    · cases h
    · cases h; exact .closeCrash (by assumption) (closeStep_cpanic (by assumption))
    · cases h; exact .closeNext (by assumption) (closeStep_next (by assumption))
    · cases h; exact .closeFin (by assumption) (closeStep_fin (by assumption))
  all_goals repeat' split at h
  all_goals first
    | contradiction
    | (cases h
       first
         | exact .lock (by assumption) (by simp_all)
         | exact .done (by assumption) (by assumption) (by assumption)
         | exact .doneCrash (by assumption) (by assumption) (by simp_all)
         | exact .timed (by assumption) (by assumption) (by assumption)
         | exact .wait (by assumption) (by assumption) (by simp_all)
         | exact .sleep (by assumption) (by assumption)
         | exact .sleepCrash (by assumption) (by simp_all)
         | exact .wake (by assumption) (by assumption)
         | exact .relock (by assumption) (by simp_all)
         | exact .selected (by assumption) (by assumption)
         | exact .timedClosed (by assumption) (by assumption)
         | exact .timedOpen (by assumption) (by assumption)
         | exact .putCrash (by assumption) (by assumption)
         | exact .put (by assumption) (by simp_all) (by assumption))

/-- The goroutine of `waitWithTimeout`. -/
inductive HStep (s : Sys) (t : Nat) (th : Thread) (i : Nat) (b : Sub) : Sys → Prop
  | sleep (hh : th.helper = .start) (hl : b.locked = true) :
      HStep s t th i b ((s.setSub i { b with tickets := b.tickets + 1, locked := false }).setHelper t (.asleep b.tickets))
  | sleepCrash (hh : th.helper = .start) (hl : b.locked = false) : HStep s t th i b (s.crash .unlock)
  | wake {k : Nat} (hh : th.helper = .asleep k) (hk : k < b.notified) : HStep s t th i b (s.setHelper t .relock)
  | relock (hh : th.helper = .relock) (hl : b.locked = false) :
      HStep s t th i b ((s.setSub i { b with locked := true }).setHelper t .done)

theorem helper_cases {s s' : Sys} {t : Nat} (h : s.helper t = some s') :
    ∃ th i o b, s.threads[t]? = some th ∧ th.call = .unsubscribe i o ∧ s.subs[i]? = some b ∧ HStep s t th i b s' := by
  unfold Sys.helper at h
  split at h
  · cases h
  rename_i th ht
  split at h
  · rename_i i o hcall
    split at h
    · cases h
    rename_i b hb
    refine ⟨th, i, o, b, ht, hcall, hb, ?_⟩
    repeat' split at h
    all_goals first
      | contradiction
      | (cases h
         first
           | exact .sleep (by assumption) (by assumption)
           | exact .sleepCrash (by assumption) (by simp_all)
           | exact .wake (by assumption) (by assumption)
           | exact .relock (by assumption) (by simp_all))
  · cases h

/-- `readLoop` of subscription `i`. -/
inductive SStep (s : Sys) (i : Nat) (b : Sub) : Sys → Prop
  | eof (hr : b.rl = .recv) (hc : s.chanClosed b.chan = true) :
      SStep s i b (s.setSub i { b with rl := .check (some .readFailed) })
  | putCrash {m : CMsg} (hr : b.rl = .put m) (hc : b.cClosed = true) : SStep s i b (s.crash .sendC)
  | put {m : CMsg} (hr : b.rl = .put m) (hc : b.cClosed = false) (hl : b.buf.length < 16) :
      SStep s i b (s.setSub i { b with buf := b.buf ++ [m], got := b.got ++ [m], rl := .recv })
  | checkClosed {m : Option CMsg} (hr : b.rl = .check m) (hs : b.state = .closed) : SStep s i b (s.setSub i { b with rl := .done })
  | checkOpen {m : Option CMsg} (hr : b.rl = .check m) (hs : b.state ≠ .closed) :
      SStep s i b (s.setSub i { b with rl := .closing (.enter m) })
  | closeCrash {p : ClosePc} {e : Panic} (hr : b.rl = .closing p) (h : CPanic b p e) : SStep s i b (s.crash e)
  | closeNext {p p' : ClosePc} {b' : Sub} (hr : b.rl = .closing p) (h : CNext b p b' p') :
      SStep s i b (s.setSub i { b' with rl := .closing p' })
  | closeFin {p : ClosePc} {b' : Sub} (hr : b.rl = .closing p) (h : CFin b p b') :
      SStep s i b (s.setSub i { b' with rl := .done })

theorem subStep_cases {s s' : Sys} {i : Nat} (h : s.subStep i = some s') :
    ∃ b, s.subs[i]? = some b ∧ SStep s i b s' := by
  unfold Sys.subStep at h
  split at h
  · cases h
  rename_i b hb
  refine ⟨b, hb, ?_⟩
  split at h
  · split at h
    · cases h; exact .eof (by assumption) (by assumption)
    · cases h
  · repeat' split at h
    all_goals first
      | contradiction
      | (cases h
         first
           | exact .putCrash (by assumption) (by assumption)
           | exact .put (by assumption) (by simp_all) (by assumption))
  · simp only [Option.some.injEq] at h
    subst h
    split
    · exact .checkClosed (by assumption) (by assumption)
    · exact .checkOpen (by assumption) (by assumption)
  · split at h
    · cases h
    · cases h; exact .closeCrash (by assumption) (closeStep_cpanic (by assumption))
    · cases h; exact .closeNext (by assumption) (closeStep_next (by assumption))
    · cases h; exact .closeFin (by assumption) (closeStep_fin (by assumption))
  · cases h

end Stomp.Client
