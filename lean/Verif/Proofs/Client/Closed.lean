import Verif.Proofs.Client.Lock
/-! # Once `closed` is set -/
namespace Stomp.Client
open Stomp

/-- The requests put on `writeCh`, with the caller. -/
def acceptedIn (tr : List Obs) : List (Nat × Req) :=
  tr.filterMap fun o => match o with
    | .accepted t r => some (t, r)
    | _ => none

/-- Where a call can be that began after `closed` was set. -/
def Thread.shut (th : Thread) : Prop :=
  match th.call with
  | .send .. => th.pc = .start ∨ th.pc = .ret .alreadyClosed
  | .frame _ | .subscribe .. => th.pc = .start ∨ th.pc = .ret .closedUnexpectedly
  | .disconnect | .mustDisconnect => th.pc = .start ∨ th.pc = .ret .ok
  | .unsubscribe .. => th.pc = .start ∨ (∃ f, th.pc = .lock f) ∨ (∃ p, th.pc = .closing p) ∨
      th.pc = .ret .closedUnexpectedly ∨ th.pc = .ret .optionError ∨ th.pc = .ret .completedSubscription

structure Shut (late : Nat → Prop) (acc : List (Nat × Req)) (s : Sys) : Prop where
  lock : LockInv s
  closed : s.closed = true
  acc : acceptedIn s.trace = acc
  shut : ∀ t th, late t → s.threads[t]? = some th → th.shut

variable {late : Nat → Prop} {acc : List (Nat × Req)}

/-- Nothing changed but fields that do not matter, and log entries other than `accepted`. -/
theorem shut_congr {s s' : Sys} (hi : Shut late acc s) (hl : LockInv s') (h1 : s'.closed = s.closed)
    (h2 : acceptedIn s'.trace = acceptedIn s.trace) (h3 : s'.threads = s.threads) : Shut late acc s' :=
  ⟨hl, by rw [h1]; exact hi.closed, by rw [h2]; exact hi.acc, by rw [h3]; exact hi.shut⟩

/-- One caller moved. -/
theorem shut_goto {s s' : Sys} {t : Nat} {th : Thread} {g : Thread → Thread} (hi : Shut late acc s) (hl : LockInv s')
    (ht : s.threads[t]? = some th) (hg : late t → th.shut → (g th).shut) (h1 : s'.closed = true)
    (h2 : acceptedIn s'.trace = acceptedIn s.trace) (h3 : s'.threads = s.threads.modify t g) : Shut late acc s' := by
  refine ⟨hl, h1, by rw [h2]; exact hi.acc, ?_⟩
  intro u thu hu h
  rw [h3, List.getElem?_modify] at h
  split at h
  · rename_i heq
    subst heq
    rw [ht] at h
    simp only [Option.map_eq_map, Option.map_some, Option.some.injEq] at h
    subst h
    exact hg hu (hi.shut t th hu ht)
  · simp at h
    exact hi.shut u thu hu h

theorem acceptedIn_append (a b : List Obs) : acceptedIn (a ++ b) = acceptedIn a ++ acceptedIn b := by
  simp [acceptedIn]

theorem shut_frameDone {s s' : Sys} {t : Nat} {th : Thread} {r : Res} (hi : Shut late acc s) (hl : LockInv s')
    (ht : s.threads[t]? = some th) (h : s' = s.frameDone t th.call r)
    (hg : late t → th.shut → r = .closedUnexpectedly ∧ ((∃ f, th.call = .frame f) ∨ ∃ i o, th.call = .unsubscribe i o)) :
    Shut late acc s' := by
  subst h
  unfold Sys.frameDone at hl ⊢
  split
  · rename_i i o hcall
    split
    · rename_i hr
      refine shut_goto hi ?_ ht ?_ hi.closed rfl rfl
      · simpa [hcall, hr] using hl
      · intro _ _; simp [Thread.shut, hcall]
    · rename_i hr
      refine shut_goto hi ?_ ht ?_ hi.closed rfl rfl
      · simpa [hcall, hr] using hl
      · intro a b; exact absurd (hg a b).1 hr
  · rename_i hcall
    refine shut_goto hi ?_ ht ?_ hi.closed (by simp [Sys.ret, Sys.goto, Sys.log, acceptedIn]) rfl
    · split at hl
      · exact absurd (by assumption) (hcall _ _)
      · exact hl
    · intro a b
      obtain ⟨rfl, ⟨f, hf⟩ | ⟨i, o, hf⟩⟩ := hg a b
      · simp [Thread.shut, hf]
      · exact absurd hf (hcall _ _)

theorem shut_frameEnter {s s' : Sys} {t : Nat} {th : Thread} {f : Frame} (hi : Shut late acc s) (hl : LockInv s')
    (ht : s.threads[t]? = some th) (hc : late t → th.shut → (∃ f, th.call = .frame f) ∨ ∃ i o, th.call = .unsubscribe i o)
    (h : s.frameEnter t th.call f = some s') : Shut late acc s' := by
  unfold Sys.frameEnter at h
  rw [hi.closed] at h
  simp only [if_true] at h
  split at h
  · cases h
  · simp only [Option.some.injEq] at h
    refine shut_frameDone (s := s.closeNet) ?_ hl ht h.symm (fun a b => ⟨rfl, hc a b⟩)
    exact shut_congr hi (lock_congr hi.lock rfl rfl rfl rfl hi.lock.panic) rfl rfl rfl

theorem shut_begin {s s' : Sys} {t : Nat} {th : Thread} (hi : Shut late acc s) (hl : LockInv s')
    (ht : s.threads[t]? = some th) (h : s.begin t th.call = some s') : Shut late acc s' := by
  have hacc : ∀ (l : List Obs) (t : Nat) (r : Res), acceptedIn (l ++ [Obs.ret t r]) = acceptedIn l := by
    intro l t r; simp [acceptedIn]
  unfold Sys.begin at h
  rw [hi.closed] at h
  simp only [if_true] at h
  repeat' split at h
  all_goals first
    | contradiction
    | exact shut_frameEnter hi hl ht (fun _ _ => Or.inl ⟨_, by assumption⟩) h
    | simp only [Option.some.injEq] at h
  all_goals subst h
  all_goals first
    | exact shut_goto hi hl ht (fun _ _ => by simp [Thread.shut, *]) hi.closed (hacc _ _ _) rfl
    | exact shut_goto hi hl ht (fun _ _ => by simp [Thread.shut, *]) hi.closed rfl rfl

theorem shut_thread {cfg : Cfg} {s s' : Sys} {t : Nat} (hi : Shut late acc s)
    (h : s.thread cfg t = some s') : Shut late acc s' := by
  have hl := lock_thread hi.lock h
  have hacc : ∀ (l : List Obs) (t : Nat) (r : Res), acceptedIn (l ++ [Obs.ret t r]) = acceptedIn l := by
    intro l t r; simp [acceptedIn]
  unfold Sys.thread at h
  split at h
  · cases h
  rename_i th ht
  split at h
  · exact shut_begin hi hl ht h
  · rename_i f hpc
    refine shut_frameEnter hi hl ht ?_ h
    intro _ hs
    cases hcall : th.call <;> simp_all [Thread.shut]
  · rename_i r hpc
    exact absurd (hi.lock.hold t th ht (by simp [Thread.holds, hpc])).2 (by simp [hi.closed])
  · rename_i n hpc
    have hns : ¬ th.shut := by
      intro hs
      cases hcall : th.call <;> simp_all [Thread.shut]
    unfold Sys.waitClosed at h
    repeat' split at h
    all_goals first
      | contradiction
      | simp only [Option.some.injEq] at h
    · subst h; exact shut_congr hi hl rfl rfl rfl
    · subst h; exact shut_congr hi hl rfl rfl rfl
    · exact shut_frameDone hi hl ht h.symm (fun _ hs => absurd hs hns)
  · cases h
  · rename_i h1 h2 h3 h4 h5
    repeat' split at h
    all_goals first
      | contradiction
      | skip
    rename_i i o hcall _ b hb
    unfold Sys.unsub at h
    split at h
    · repeat' split at h
      all_goals first
        | contradiction
        | simp only [Option.some.injEq] at h
      all_goals subst h
      · exact shut_congr hi hl rfl rfl rfl
      · exact shut_goto hi hl ht (fun _ _ => by simp [Thread.shut, *]) hi.closed rfl rfl
      · exact shut_goto hi hl ht (fun _ _ => by simp [Thread.shut, *]) hi.closed (hacc _ _ _) rfl
    all_goals
      have hns : ¬ th.shut := by
        intro hs
        simp_all [Thread.shut]
    all_goals repeat' split at h
    all_goals first
      | contradiction
      | simp only [Option.some.injEq] at h
    all_goals subst h
    all_goals first
      | exact shut_congr hi hl rfl rfl rfl
      | exact shut_goto hi hl ht (fun _ hs => absurd hs hns) hi.closed rfl rfl
      | exact shut_goto hi hl ht (fun _ hs => absurd hs hns) hi.closed (hacc _ _ _) rfl

theorem shut_timeout {cfg : Cfg} {s s' : Sys} {t : Nat} (hi : Shut late acc s)
    (h : s.timeout cfg t = some s') : Shut late acc s' := by
  have hl := lock_timeout hi.lock h
  have hacc : ∀ (l : List Obs) (t : Nat) (r : Res), acceptedIn (l ++ [Obs.ret t r]) = acceptedIn l := by
    intro l t r; simp [acceptedIn]
  unfold Sys.timeout at h
  split at h
  · cases h
  rename_i th ht
  have hns : (∃ r, th.pc = .push r) ∨ (∃ n, th.pc = .wait n) ∨ th.pc = .select → ¬ th.shut := by
    intro hpc hs
    cases hcall : th.call <;> simp_all [Thread.shut] <;> grind
  repeat' split at h
  all_goals first
    | contradiction
    | simp only [Option.some.injEq] at h
  all_goals replace hns := hns (by grind)
  all_goals first
    | exact shut_frameDone hi hl ht h.symm (fun _ hs => absurd hs hns)
    | subst h
  all_goals first
    | exact shut_goto hi hl ht (fun _ hs => absurd hs hns) hi.closed (hacc _ _ _) rfl
    | exact shut_goto hi hl ht (fun _ hs => absurd hs hns) rfl (hacc _ _ _) rfl
    | exact shut_goto hi hl ht (fun _ hs => absurd hs hns) hi.closed rfl rfl

theorem shut_helper {s s' : Sys} {t : Nat} (hi : Shut late acc s) (h : s.helper t = some s') : Shut late acc s' := by
  have hl := lock_helper hi.lock h
  unfold Sys.helper at h
  split at h
  · cases h
  rename_i th ht
  repeat' split at h
  all_goals first
    | contradiction
    | simp only [Option.some.injEq] at h
  all_goals subst h
  all_goals first
    | exact shut_congr hi hl rfl rfl rfl
    | exact shut_goto hi hl ht (fun _ hs => by simpa [Thread.shut] using hs) hi.closed rfl rfl

theorem shut_handOver {s s' : Sys} {n : Nat} {f : Frame} {b : Bool} (hi : Shut late acc s)
    (h : s.handOver n f b = some s') : Shut late acc s' := by
  have hl := lock_handOver hi.lock h
  have hacc : ∀ (l : List Obs) (t : Nat) (r : Res), acceptedIn (l ++ [Obs.ret t r]) = acceptedIn l := by
    intro l t r; simp [acceptedIn]
  unfold Sys.handOver at h
  repeat' split at h
  all_goals first
    | contradiction
    | simp only [Option.some.injEq] at h
  · rename_i t _ _ _ th ht hpc
    have hns : ¬ th.shut := by
      intro hs
      cases hcall : th.call <;> simp_all [Thread.shut]
    unfold Sys.response at h
    dsimp only at h
    split at h
    · subst h; exact shut_goto hi hl ht (fun _ hs => absurd hs hns) hi.closed (hacc _ _ _) rfl
    · split at h
      · subst h; exact shut_goto hi hl ht (fun _ hs => absurd hs hns) rfl (hacc _ _ _) rfl
      · subst h; exact shut_goto hi hl ht (fun _ hs => absurd hs hns) hi.closed (hacc _ _ _) rfl
    · exact shut_frameDone hi hl ht h.symm (fun _ hs => absurd hs hns)
  · subst h; exact shut_congr hi hl rfl rfl rfl

theorem shut_closeChan {s : Sys} {n : Nat} (hi : Shut late acc s) : Shut late acc (s.closeChan n) := by
  have hl := lock_closeChan (n := n) hi.lock
  unfold Sys.closeChan at hl ⊢
  split
  · exact shut_congr hi (by simpa [*] using hl) rfl rfl rfl
  · exact shut_congr hi (by simpa [*] using hl) rfl rfl rfl

theorem shut_deliver {s s' : Sys} {b : Bool} (hi : Shut late acc s) (h : s.deliver b = some s') :
    Shut late acc s' := by
  have hl := lock_deliver hi.lock h
  unfold Sys.deliver at h
  repeat' split at h
  all_goals first
    | contradiction
    | (simp only [Option.some.injEq] at h; subst h; exact shut_congr hi hl rfl rfl rfl)
    | (obtain ⟨s1, h1, rfl⟩ := Option.map_eq_some_iff.1 h
       have h2 := shut_handOver hi h1
       first
         | exact shut_closeChan (shut_congr h2 (lock_congr h2.lock rfl rfl rfl rfl h2.lock.panic) rfl rfl rfl)
         | exact shut_congr h2 hl rfl rfl rfl)

theorem shut_failWith {s s' : Sys} {x : Bytes} {o : List Nat} (hi : Shut late acc s) (h : s.failWith x o = some s') :
    Shut late acc s' := by
  have hl := lock_failWith hi.lock h
  unfold Sys.failWith at h
  split at h
  · simp only [Option.some.injEq] at h; subst h; exact shut_congr hi hl rfl rfl rfl
  · cases h

theorem acceptedIn_other (l : List Obs) (o : Obs) (h : ∀ t r, o ≠ .accepted t r) :
    acceptedIn (l ++ [o]) = acceptedIn l := by
  cases o <;> simp_all [acceptedIn]

theorem shut_loopRead {s s' : Sys} {o : List Nat} (hi : Shut late acc s) (h : s.loopRead o = some s') :
    Shut late acc s' := by
  have hl := lock_loopRead hi.lock h
  unfold Sys.loopRead at h
  dsimp only at h
  repeat' split at h
  all_goals first
    | contradiction
    | exact shut_failWith hi h
    | (refine shut_failWith (shut_congr hi (lock_congr hi.lock ?_ ?_ ?_ ?_ ?_) ?_ ?_ ?_) h <;>
        first | rfl | exact hi.lock.panic | exact acceptedIn_other _ _ (by simp))
    | (simp only [Option.some.injEq] at h; subst h
       exact shut_congr hi hl rfl (acceptedIn_other _ _ (by simp)) rfl)

theorem shut_loopWrite {s s' : Sys} {k : Bool} {o : List Nat} (hi : Shut late acc s) (h : s.loopWrite k o = some s') :
    Shut late acc s' := by
  have hl := lock_loopWrite hi.lock h
  unfold Sys.loopWrite at h
  split at h
  · split at h
    · exact shut_failWith hi h
    · cases h
  · rename_i r rest _
    have key : Shut late acc (s.takeReq r rest).1 := by
      unfold Sys.takeReq
      dsimp only
      split
      · exact shut_closeChan (shut_congr hi (lock_congr hi.lock rfl rfl rfl rfl hi.lock.panic) rfl
          (acceptedIn_other _ _ (by simp)) rfl)
      · exact shut_congr hi (lock_congr hi.lock rfl rfl rfl rfl hi.lock.panic) rfl (acceptedIn_other _ _ (by simp)) rfl
    rcases htr : s.takeReq r rest with ⟨s1, _ | f⟩
    all_goals rw [htr] at h key
    all_goals dsimp only at h key
    · simp only [Option.some.injEq] at h; subst h; exact key
    · repeat' split at h
      · cases h
      · simp only [Option.some.injEq] at h; subst h; exact shut_congr key hl rfl (acceptedIn_other _ _ (by simp)) rfl
      · exact shut_failWith (s := s1.log _) (shut_congr key (lock_congr key.lock rfl rfl rfl rfl key.lock.panic) rfl
          (acceptedIn_other _ _ (by simp)) rfl) h

theorem shut_step {cfg : Cfg} {s s' : Sys} {e : Ev} (hi : Shut late acc s) (h : s.step cfg e = some s') :
    Shut late acc s' := by
  have hl := lock_step hi.lock h
  unfold Sys.step at h
  split at h
  · cases h
  cases e with
  | thread t => exact shut_thread hi h
  | timeout t => exact shut_timeout hi h
  | helper t => exact shut_helper hi h
  | deliver b => exact shut_deliver hi h
  | finish =>
    dsimp only [Sys.finish] at h
    repeat' split at h
    all_goals first
      | contradiction
      | simp only [Option.some.injEq] at h
    all_goals subst h
    all_goals first
      | exact shut_congr hi hl rfl rfl rfl
      | exact shut_congr hi hl hi.closed.symm rfl rfl
  | sub i =>
    dsimp only [Sys.subStep] at h
    repeat' split at h
    all_goals first
      | contradiction
      | simp only [Option.some.injEq] at h
    all_goals subst h
    all_goals exact shut_congr hi hl rfl rfl rfl
  | loopRead o => dsimp only at h; split at h; exact shut_loopRead hi h; cases h
  | loopWrite k o => dsimp only at h; split at h; exact shut_loopWrite hi h; cases h
  | loopTimeout o => dsimp only at h; split at h; exact shut_failWith hi h; cases h
  | loopBeat k o =>
    dsimp only [Sys.loopBeat] at h
    repeat' split at h
    all_goals first
      | contradiction
      | exact shut_failWith hi h
      | (simp only [Option.some.injEq] at h; subst h
         exact shut_congr hi hl rfl (acceptedIn_other _ _ (by simp)) rfl)
  | call c =>
    dsimp only at h
    split at h
    · simp only [Option.some.injEq] at h
      subst h
      refine ⟨hl, hi.closed, hi.acc, ?_⟩
      intro t th ht hg
      rw [List.getElem?_append] at hg
      split at hg
      · exact hi.shut t th ht hg
      · have : th = { call := c, pc := .start, helper := .none } := by
          have := List.mem_of_getElem? hg
          simpa using this
        subst this
        cases c <;> simp [Thread.shut]
    · cases h
  | _ =>
    dsimp only at h
    repeat' split at h
    all_goals first
      | contradiction
      | (simp only [Option.some.injEq] at h; subst h
         first
           | exact shut_congr hi hl rfl rfl rfl
           | exact shut_congr hi hl rfl (acceptedIn_other _ _ (by simp)) rfl)

end Stomp.Client
