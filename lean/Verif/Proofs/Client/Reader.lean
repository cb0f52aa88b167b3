import Verif.Spec.Leaks
import Verif.Proofs.Client.NetShut
import Verif.Proofs.Client.Reads
import Verif.Proofs.Client.Wake
/-! # `readLoop` with a frame in its hand; who is left behind -/
namespace Stomp.Client
open Stomp

/-- A run with the frame in the hand of `readLoop` is a run of the client. -/
theorem rrun_sys {cfg : Cfg} : ∀ {es : List HSys.Ev} {x y : HSys}, x.run cfg es = some y → ∃ es', x.sys.run cfg es' = some y.sys
  | [], x, y, h => by simp only [HSys.run, Option.some.injEq] at h; subst h; exact ⟨[], rfl⟩
  | e :: es, x, y, h => by
    simp only [HSys.run, Option.bind_eq_some_iff] at h
    obtain ⟨z, h1, h2⟩ := h
    obtain ⟨es', h3⟩ := rrun_sys h2
    have key : z.sys = x.sys ∨ ∃ e', x.sys.step cfg e' = some z.sys := by
      unfold HSys.step at h1
      repeat' split at h1
      all_goals first
        | (cases h1; done)
        | (cases h1; exact .inl rfl)
        | (simp only [Option.map_eq_some_iff] at h1; obtain ⟨s, h1, rfl⟩ := h1; exact .inr ⟨_, h1⟩)
    rcases key with e1 | ⟨e', e1⟩
    · exact ⟨es', e1 ▸ h3⟩
    · exact ⟨e' :: es', by simp only [Sys.run, e1, Option.bind_some]; exact h3⟩

/-- What `readLoop` and `processLoop` share, and `processLoop` having returned. -/
def Over (r : List (Option Frame)) (d : Bool) (s : Sys) : Prop := s.readCh = r ∧ s.readDone = d ∧ s.loop = .done

theorem Over.frameDone {r d} {s : Sys} (h : Over r d s) (t : Nat) (c : Call) (q : Res) : Over r d (s.frameDone t c q) := by
  unfold Sys.frameDone; repeat' split
  all_goals exact h

/-- When `processLoop` has returned nobody but `readLoop` changes `readCh`. -/
theorem Over.step {cfg : Cfg} {r d} {s s' : Sys} {e : Ev} (h : Over r d s) (h1 : ∀ f, e ≠ .net f) (h2 : e ≠ .netErr) (hs : s.step cfg e = some s') :
    Over r d s' := by
  have hl := h.2.2
  unfold Sys.step at hs
  split at hs
  · cases hs
  cases e <;> dsimp only at hs
  case thread t =>
    unfold Sys.thread at hs
    split at hs
    · cases hs
    · split at hs
      · unfold Sys.begin Sys.frameEnter at hs
        repeat' split at hs
        all_goals first
          | cases hs; done
          | (cases hs; exact h)
          | (cases hs; exact Over.frameDone (s := s.closeNet) h _ _ _)
      · unfold Sys.frameEnter at hs
        repeat' split at hs
        all_goals first
          | cases hs; done
          | (cases hs; exact h)
          | (cases hs; exact Over.frameDone (s := s.closeNet) h _ _ _)
      · unfold Sys.push at hs
        dsimp only at hs
        repeat' split at hs
        all_goals first
          | cases hs; done
          | (cases hs; exact h)
          | (cases hs; refine Over.frameDone ?_ _ _ _; exact h)
          | (cases hs
             unfold Sys.handOut
             split <;> exact h)
      · unfold Sys.waitClosed at hs
        repeat' split at hs
        all_goals first | cases hs; done | (cases hs; exact h) | (cases hs; exact h.frameDone _ _ _)
      · cases hs
      · split at hs
        · split at hs
          · cases hs
          · unfold Sys.unsub at hs
            repeat' split at hs
            all_goals first | cases hs; done | (cases hs; exact h)
        · cases hs
  case timeout t =>
    unfold Sys.timeout at hs
    repeat' split at hs
    all_goals first | cases hs; done | (cases hs; exact h) | (cases hs; exact h.frameDone _ _ _)
  case net f => exact absurd rfl (h1 f)
  case netErr => exact absurd rfl h2
  case deliver b => unfold Sys.deliver at hs; rw [hl] at hs; cases hs
  case finish => unfold Sys.finish at hs; rw [hl] at hs; cases hs
  case loopRead o => rw [hl] at hs; cases hs
  case loopWrite b o => rw [hl] at hs; cases hs
  case loopBeat b o => rw [hl] at hs; cases hs
  case loopTimeout o => rw [hl] at hs; simp at hs
  case helper t =>
    unfold Sys.helper at hs
    repeat' split at hs
    all_goals first | cases hs; done | (cases hs; exact h)
  case sub i =>
    unfold Sys.subStep at hs
    repeat' split at hs
    all_goals first | cases hs; done | (cases hs; exact h)
  all_goals
    repeat' split at hs
    all_goals first | cases hs; done | (cases hs; exact h)

/-- `readLoop` is left with a frame for which there is no room. -/
def Left (cfg : Cfg) (f : Option Frame) (x : HSys) : Prop :=
  x.sys.loop = .done ∧ x.sys.readDone = false ∧ x.hand = some f ∧ cfg.readCap ≤ x.sys.readCh.length

theorem left_step {cfg : Cfg} {f : Option Frame} {x y : HSys} {e : HSys.Ev} (h : Left cfg f x) (hs : x.step cfg e = some y) : Left cfg f y := by
  obtain ⟨h1, h2, h3, h4⟩ := h
  cases e with
  | read g => simp [HSys.step, h3] at hs
  | push =>
    simp only [HSys.step, h3, Option.map_eq_some_iff] at hs
    obtain ⟨s, hs, _⟩ := hs
    simp only [Sys.step, h2] at hs
    rw [if_neg (show ¬ x.sys.readCh.length < cfg.readCap by omega)] at hs
    simp at hs
  | fail => simp [HSys.step, h3] at hs
  | other e =>
    have key : ∀ s, x.sys.step cfg e = some s → (∀ f, e ≠ .net f) → e ≠ .netErr → Left cfg f { x with sys := s } := by
      intro s hs ha hb
      obtain ⟨a, b, c⟩ := Over.step (r := x.sys.readCh) (d := x.sys.readDone) ⟨rfl, rfl, h1⟩ ha hb hs
      exact ⟨c, b.trans h2, h3, by show cfg.readCap ≤ s.readCh.length; rw [a]; exact h4⟩
    cases e <;> simp only [HSys.step, Option.map_eq_some_iff] at hs
    all_goals first
      | (cases hs; done)
      | (obtain ⟨s, hs, rfl⟩ := hs; exact key s hs (by intro; simp) (by simp))

theorem left_run {cfg : Cfg} {f : Option Frame} : ∀ {es : List HSys.Ev} {x y : HSys}, Left cfg f x → x.run cfg es = some y → Left cfg f y
  | [], x, y, h, hr => by simp only [HSys.run, Option.some.injEq] at hr; exact hr ▸ h
  | e :: es, x, y, h, hr => by
    simp only [HSys.run, Option.bind_eq_some_iff] at hr
    obtain ⟨z, h1, h2⟩ := hr
    exact left_run (left_step h h1) h2

theorem readCount_eq (s : Sys) : Spec.readCount s = (readIn s.trace).length := by
  unfold Spec.readCount readIn
  induction s.trace with
  | nil => rfl
  | cons o l ih => rw [List.countP_cons, ih]; cases o <;> simp

theorem takenCount_eq (s : Sys) : Spec.takenCount s = (tookIn s.trace).length := by
  unfold Spec.takenCount tookIn
  induction s.trace with
  | nil => rfl
  | cons o l ih => rw [List.countP_cons, ih]; cases o <;> simp

/-! ## The goroutine of `waitWithTimeout` -/

/-- It sleeps, and the only broadcast was before. -/
def HLost (t i k : Nat) (s : Sys) : Prop :=
  ∃ b pc, s.subs[i]? = some b ∧ b.once = .done ∧ b.notified ≤ k ∧ s.won t = some (i, pc, .asleep k)

theorem hlost_step {cfg : Cfg} {s s' : Sys} {t i k : Nat} (hi : UInv s) (hl : HLost t i k s) (h : Step cfg s s') : HLost t i k s' := by
  obtain ⟨b, pc, hb, ho, hn, hw⟩ := hl
  have hk := hi.held t i pc _ b hw hb
  cases ueff_step hi.dom h with
  | quiet ht hs =>
    obtain ⟨b', hb', _⟩ := (ext_step h).subs i b hb
    rcases hs i b' hb' with ⟨b0, hb0, he⟩ | ⟨hl, _⟩
    · rw [hb] at hb0; cases hb0
      exact ⟨b', pc, hb', by cases he <;> exact ho, by cases he <;> exact hn, by rw [ht]; exact hw⟩
    · have := (List.getElem?_eq_some_iff.1 hb).1
      omega
  | @rl j c c' ht hb1 hb2 hs hr =>
    by_cases hj : j = i
    · subst hj
      rw [hb] at hb1; cases hb1
      obtain ⟨h1, h2⟩ := lost_rstep hk ho hr
      exact ⟨c', pc, hb2, h1, by rw [h2]; exact hn, by rw [ht]; exact hw⟩
    · exact ⟨b, pc, (hs i (fun e => hj e.symm)).trans hb, ho, hn, by rw [ht]; exact hw⟩
  | @cas u j c pc' ht ht' hww hb1 hb2 hs hst hpc =>
    have hut : t ≠ u := by intro e; subst e; rw [hw] at ht; cases ht
    by_cases hj : j = i
    · subst hj
      rw [hb] at hb1; cases hb1
      exact ⟨_, pc, hb2, ho, hn, by rw [hww t hut]; exact hw⟩
    · exact ⟨b, pc, (hs i (fun e => hj e.symm)).trans hb, ho, hn, by rw [hww t hut]; exact hw⟩
  | @thr u j c c' pc1 pc2 k1 k2 ht ht' hww hb1 hb2 hs hst =>
    by_cases hut : t = u
    · subst hut
      rw [hw] at ht; cases ht
      rw [hb] at hb1; cases hb1
      have hlate : pc.late = true := by simpa using hk.helper _ _ rfl
      cases hst with
      | timeout => exact ⟨_, _, hb2, ho, hn, ht'⟩
      | timedClosed => exact ⟨_, _, hb2, ho, hn, ht'⟩
      | timedOpen => exact ⟨_, _, hb2, ho, hn, ht'⟩
      | put => exact ⟨_, _, hb2, ho, hn, ht'⟩
      | hWake hlt => omega
      | move hp => cases pc <;> first | cases hp; done | cases hlate; done
      | back hp => cases pc <;> first | cases hp; done | cases hlate; done
      | lost hp => cases pc <;> first | cases hp; done | cases hlate; done
      | _ => cases hlate
    · have hj : j ≠ i := by
        intro e; subst e
        exact hut (hi.one t u j _ _ _ _ hw ht)
      exact ⟨b, pc, (hs i (fun e => hj e.symm)).trans hb, ho, hn, by rw [hww t hut]; exact hw⟩

end Stomp.Client
