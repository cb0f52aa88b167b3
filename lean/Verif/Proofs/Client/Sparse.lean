import Verif.Proofs.Client.NoRead
import Verif.Proofs.Client.Timer
/-! # Heart-beats of the client are sent only after a whole interval without a transmission -/
namespace Stomp.Client
open Stomp

/-- Nothing was transmitted in this step. -/
def Mute (s s' : Sys) : Prop := ∃ l, s'.trace = s.trace ++ l ∧ l.filter Obs.sends = []

theorem mute_same {s s' : Sys} (h : s'.trace = s.trace) : Mute s s' := ⟨[], by rw [h, List.append_nil], rfl⟩

theorem mute_one {s s' : Sys} {o : Obs} (h : s'.trace = s.trace ++ [o]) (ho : [o].filter Obs.sends = []) : Mute s s' := ⟨[o], h, ho⟩

theorem mute_ret {s s0 : Sys} {t : Nat} {r : Res} (h : s0.trace = s.trace) : Mute s (s0.ret t r) := ⟨[.ret t r], by
  show s0.trace ++ _ = _
  rw [h], rfl⟩

theorem mute_frameDone {s s0 : Sys} {t : Nat} {c : Call} {r : Res} (h : s0.trace = s.trace) : Mute s (s0.frameDone t c r) := by
  unfold Sys.frameDone
  repeat' split
  all_goals first
    | exact mute_ret h
    | exact mute_same h

theorem mute_frameEnter {s s' : Sys} {t : Nat} {c : Call} {f : Frame} (h : s.frameEnter t c f = some s') : Mute s s' := by
  unfold Sys.frameEnter at h
  repeat' split at h
  all_goals first
    | contradiction
    | (simp only [Option.some.injEq] at h; subst h)
  · exact mute_frameDone rfl
  · exact mute_same rfl
  · exact mute_same rfl

theorem mute_begin {s s' : Sys} {t : Nat} {c : Call} (h : s.begin t c = some s') : Mute s s' := by
  unfold Sys.begin at h
  repeat' split at h
  all_goals first
    | contradiction
    | exact mute_frameEnter h
    | (simp only [Option.some.injEq] at h; subst h)
  all_goals first
    | exact mute_ret rfl
    | exact mute_same rfl

theorem mute_log {s s0 s' : Sys} {o : Obs} (ho : [o].filter Obs.sends = []) (h0 : s0.trace = s.trace ++ [o]) (h : Mute s0 s') : Mute s s' := by
  obtain ⟨l, h1, h2⟩ := h
  refine ⟨o :: l, by rw [h1, h0]; simp, ?_⟩
  rw [show o :: l = [o] ++ l from rfl, List.filter_append, ho, h2]; rfl

theorem mute_push {cfg : Cfg} {s s' : Sys} {t : Nat} {c : Call} {r : Req} (h : s.push cfg t c r = some s') : Mute s s' := by
  unfold Sys.push at h
  dsimp only at h
  repeat' split at h
  all_goals first
    | contradiction
    | (simp only [Option.some.injEq] at h; subst h)
  all_goals first
    | exact mute_same rfl
    | exact mute_one rfl rfl
    | exact mute_log (o := .accepted t r) (s0 := { s with trace := s.trace ++ [.accepted t r] }) rfl rfl (mute_ret rfl)
    | exact mute_log (o := .accepted t r) (s0 := { s with trace := s.trace ++ [.accepted t r] }) rfl rfl (mute_frameDone rfl)
    | exact mute_log (o := .accepted t r) (s0 := { s with trace := s.trace ++ [.accepted t r] }) rfl rfl (mute_ret (handOut_trace _ _))

theorem mute_waitClosed {s s' : Sys} {t : Nat} {c : Call} {n : Nat} (h : s.waitClosed t c n = some s') : Mute s s' := by
  unfold Sys.waitClosed at h
  repeat' split at h
  all_goals first
    | contradiction
    | (simp only [Option.some.injEq] at h; subst h)
  all_goals first
    | exact mute_same rfl
    | exact mute_frameDone rfl

theorem mute_unsub {cfg : Cfg} {s s' : Sys} {t : Nat} {th : Thread} {i : Nat} {b : Sub} (h : s.unsub cfg t th i b = some s') : Mute s s' := by
  unfold Sys.unsub at h
  repeat' split at h
  all_goals first
    | contradiction
    | (simp only [Option.some.injEq] at h; subst h)
  all_goals first
    | exact mute_same rfl
    | exact mute_ret rfl

theorem mute_thread {cfg : Cfg} {s s' : Sys} {t : Nat} (h : s.thread cfg t = some s') : Mute s s' := by
  unfold Sys.thread at h
  repeat' split at h
  all_goals first
    | contradiction
    | exact mute_begin h
    | exact mute_frameEnter h
    | exact mute_push h
    | exact mute_waitClosed h
    | exact mute_unsub h

theorem mute_timeout {cfg : Cfg} {s s' : Sys} {t : Nat} (h : s.timeout cfg t = some s') : Mute s s' := by
  unfold Sys.timeout at h
  repeat' split at h
  all_goals first
    | contradiction
    | (simp only [Option.some.injEq] at h; subst h)
  all_goals first
    | exact mute_same rfl
    | exact mute_ret rfl
    | exact mute_frameDone rfl

theorem mute_helper {s s' : Sys} {t : Nat} (h : s.helper t = some s') : Mute s s' := by
  unfold Sys.helper at h
  repeat' split at h
  all_goals first
    | contradiction
    | (simp only [Option.some.injEq] at h; subst h)
  all_goals exact mute_same rfl

theorem mute_response {s : Sys} {t : Nat} {c : Call} {f : Frame} {k : Bool} : Mute s (s.response t c f k) := by
  unfold Sys.response
  dsimp only
  split
  · exact mute_ret rfl
  · by_cases hc : f.command = Cmd.receipt
    · rw [if_pos hc, if_pos rfl]; exact mute_ret rfl
    · rw [if_neg hc, if_neg (by simp)]; exact mute_ret rfl
  · exact mute_frameDone rfl

theorem mute_handOver {s s' : Sys} {n : Nat} {f : Frame} {k : Bool} (h : s.handOver n f k = some s') : Mute s s' := by
  unfold Sys.handOver at h
  repeat' split at h
  all_goals first
    | contradiction
    | (simp only [Option.some.injEq] at h; subst h)
  · exact mute_response
  · exact mute_same rfl

theorem mute_then {s s1 s' : Sys} (h : Mute s s1) (he : s'.trace = s1.trace) : Mute s s' := by
  obtain ⟨l, h1, h2⟩ := h
  exact ⟨l, he.trans h1, h2⟩

theorem mute_deliver {s s' : Sys} {k : Bool} (h : s.deliver k = some s') : Mute s s' := by
  unfold Sys.deliver at h
  repeat' split at h
  all_goals first
    | contradiction
    | (simp only [Option.some.injEq] at h; subst h; exact mute_same rfl)
    | (obtain ⟨s1, h1, rfl⟩ := Option.map_eq_some_iff.1 h
       first
         | exact mute_then (mute_handOver h1) (closeChan_trace _ _)
         | exact mute_then (mute_handOver h1) rfl)

theorem mute_finish {s s' : Sys} (h : s.finish = some s') : Mute s s' := by
  unfold Sys.finish at h
  repeat' split at h
  all_goals first
    | contradiction
    | (simp only [Option.some.injEq] at h; subst h; exact mute_same rfl)

theorem mute_loopRead {s s' : Sys} {o : List Nat} (h : s.loopRead o = some s') : Mute s s' := by
  unfold Sys.loopRead at h
  dsimp only at h
  repeat' split at h
  all_goals first
    | contradiction
    | exact mute_same (failWith_trace h)
    | exact mute_one (failWith_trace h) rfl
    | (simp only [Option.some.injEq] at h; subst h; exact mute_one rfl rfl)

theorem mute_subStep {s s' : Sys} {i : Nat} (h : s.subStep i = some s') : Mute s s' := by
  unfold Sys.subStep at h
  repeat' split at h
  all_goals first
    | contradiction
    | (simp only [Option.some.injEq] at h; subst h; exact mute_same rfl)

/-- Only the cases of `writeCh` and of the write timer transmit. -/
theorem mute_step {cfg : Cfg} {s s' : Sys} {e : Ev} (h : s.step cfg e = some s') (h1 : ∀ k o, e ≠ .loopWrite k o) (h2 : ∀ k o, e ≠ .loopBeat k o) :
    Mute s s' := by
  unfold Sys.step at h
  split at h
  · cases h
  cases e with
  | net x =>
    dsimp only at h
    repeat' split at h
    all_goals first
      | contradiction
      | (simp only [Option.some.injEq] at h; subst h; exact mute_one rfl rfl)
  | thread t => exact mute_thread h
  | timeout t => exact mute_timeout h
  | helper t => exact mute_helper h
  | deliver k => exact mute_deliver h
  | finish => exact mute_finish h
  | sub i => exact mute_subStep h
  | loopRead o =>
    dsimp only at h
    split at h
    · exact mute_loopRead h
    · cases h
  | loopWrite k o => exact absurd rfl (h1 k o)
  | loopBeat k o => exact absurd rfl (h2 k o)
  | loopTimeout o =>
    dsimp only at h
    split at h
    · exact mute_same (failWith_trace h)
    · cases h
  | call c =>
    dsimp only at h
    split at h
    · injection h with h; subst h; exact mute_same rfl
    · cases h
  | netErr =>
    dsimp only at h
    split at h
    · cases h
    · injection h with h; subst h; exact mute_same rfl
  | take i =>
    dsimp only at h
    repeat' split at h
    all_goals first
      | contradiction
      | (simp only [Option.some.injEq] at h; subst h; exact mute_same rfl)
  | tick => injection h with h; subst h; exact mute_same rfl

/-- The write timer, if it runs, runs for the whole interval after everything that was transmitted. -/
structure SparseInv (c : TCfg) (x : TSys) : Prop where
  start : ∀ dl, x.writeTimer = some dl → c.write ≤ dl
  sent : ∀ t l o, (t, l, o) ∈ x.log → o.sends = true → ∀ dl, x.writeTimer = some dl → t + c.write ≤ dl

theorem sparse_step {c : TCfg} {x x' : TSys} {e : TEv} (hl : LogInv x) (hi : SparseInv c x) (h : x.step c e = some x') : SparseInv c x' := by
  cases e with
  | delay d =>
    simp only [TSys.step, Option.some.injEq] at h
    subst h
    exact ⟨hi.start, hi.sent⟩
  | step e =>
    obtain ⟨r, w, s, l, h1, h2, h3, rfl⟩ := tstep_cases h
    generalize hy : ({ x with
        sys := s, readTimer := r, writeTimer := w, log := x.log ++ l.map fun o => (x.now, x.late, o) } : TSys) = y
    have ha := arm_same c y
    have har := arm_write c y
    have hlog : y.log = x.log ++ l.map fun o => (x.now, x.late, o) := by rw [← hy]
    have hnow : y.now = x.now := by rw [← hy]
    have hwt : y.writeTimer = w := by rw [← hy]
    have hmem : ∀ {t k : Nat} {o : Obs}, (t, k, o) ∈ y.log → (t, k, o) ∈ x.log ∨ (t = x.now ∧ o ∈ l) := by
      intro t k o ho
      rw [hlog] at ho
      rcases List.mem_append.1 ho with ho | ho
      · exact .inl ho
      · obtain ⟨o', h1, e⟩ := List.mem_map.1 ho
        cases e
        exact .inr ⟨rfl, h1⟩
    have hpast : ∀ {t k : Nat} {o : Obs}, (t, k, o) ∈ y.log → t ≤ x.now := by
      intro t k o ho
      rcases hmem ho with ho | ⟨rfl, _⟩
      · exact (hl.stamps _ _ _ ho).1
      · exact Nat.le_refl _
    have hkey : ∀ dl, (y.arm c).writeTimer = some dl → w = some dl ∨ dl = x.now + c.write := by
      intro dl hd
      rcases har with har | ⟨_, har'⟩
      · exact .inl (by rw [← hwt, ← har.1]; exact hd)
      · rw [har', hnow, Option.some.injEq] at hd
        exact .inr hd.symm
    -- the timer is stopped, or nothing is transmitted
    have hw : w = none ∨ (w = x.writeTimer ∧ l.filter Obs.sends = []) := by
      have mute : (∀ k o, e ≠ .loopWrite k o) → (∀ k o, e ≠ .loopBeat k o) → l.filter Obs.sends = [] := by
        intro g1 g2
        obtain ⟨l', g3, g4⟩ := mute_step h2 g1 g2
        rw [List.append_cancel_left (h3.symm.trans g3)]; exact g4
      cases e with
      | loopWrite k o =>
        simp only [TSys.timers, Option.some.injEq, Prod.mk.injEq] at h1
        exact .inl h1.2.symm
      | loopBeat k o =>
        simp only [TSys.timers] at h1
        split at h1
        · simp only [Option.some.injEq, Prod.mk.injEq] at h1
          exact .inl h1.2.symm
        · cases h1
      | loopTimeout o =>
        simp only [TSys.timers] at h1
        split at h1
        · simp only [Option.some.injEq, Prod.mk.injEq] at h1
          exact .inr ⟨h1.2.symm, mute (by simp) (by simp)⟩
        · cases h1
      | _ =>
        simp only [TSys.timers, Option.some.injEq, Prod.mk.injEq] at h1
        exact .inr ⟨h1.2.symm, mute (by simp) (by simp)⟩
    constructor
    · intro dl hd
      rcases hkey dl hd with hd | rfl
      · rcases hw with hw | ⟨hw, _⟩
        · rw [hw] at hd; cases hd
        · exact hi.start dl (hw ▸ hd)
      · omega
    · intro t k o hf hs dl hd
      rw [ha.2.2.2] at hf
      rcases hkey dl hd with hd | rfl
      · rcases hw with hw | ⟨hw, hm⟩
        · rw [hw] at hd; cases hd
        · rcases hmem hf with hf | ⟨_, hf⟩
          · exact hi.sent t k o hf hs dl (hw ▸ hd)
          · have : o ∈ l.filter Obs.sends := List.mem_filter.2 ⟨hf, hs⟩
            rw [hm] at this; cases this
      · have := hpast hf; omega

theorem sparse_init (c : TCfg) (n : Nat) : SparseInv c (TSys.init c n) := by
  obtain ⟨_, _, _, h4⟩ := init_same c n
  refine ⟨fun dl hd => ?_, fun t l o hf => ?_⟩
  · rcases arm_write c { sys := Sys.init n, now := 0, readTimer := none, writeTimer := none, late := 0, log := [] } with h | ⟨_, h⟩
    · rw [show (TSys.init c n).writeTimer = none from h.1] at hd; cases hd
    · rw [show (TSys.init c n).writeTimer = some (0 + c.write) from h] at hd
      cases hd; omega
  · rw [h4] at hf; cases hf

theorem sparse_run {c : TCfg} {n : Nat} {es : List TEv} {x : TSys} (h : (TSys.init c n).run c es = some x) : SparseInv c x :=
  (trun_induct (P := fun x => LogInv x ∧ SparseInv c x) (fun _ _ _ hp hs => ⟨log_step hp.1 hs, sparse_step hp.1 hp.2 hs⟩) es
    ⟨log_init c n, sparse_init c n⟩ h).2

end Stomp.Client
