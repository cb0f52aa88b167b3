import Verif.Proofs.Client.Races
import Verif.Proofs.Client.Stuck
import Verif.Proofs.Client.Timer
/-! # Accesses of the client's goroutines: conflicting accesses are ordered -/
namespace Stomp.Client
open Stomp Stomp.Client.Spec

theorem follows_at {cfg : Cfg} : ∀ {l : List Moment} {s : Sys} {i : Nat} {m : Moment}, Follows cfg s l → l[i]? = some m →
    s.run cfg ((l.take i).map (·.ev)) = some m.before ∧ m.before.step cfg m.ev = some m.after := by
  intro l
  induction l with
  | nil => intro s i m _ h; simp at h
  | cons a l ih =>
    intro s i m hf h
    obtain ⟨h1, h2, h3⟩ := hf
    cases i with
    | zero =>
      simp only [List.getElem?_cons_zero, Option.some.injEq] at h
      subst h
      rw [h1]
      exact ⟨rfl, h2⟩
    | succ i =>
      rw [List.getElem?_cons_succ] at h
      obtain ⟨h4, h5⟩ := ih h3 h
      refine ⟨?_, h5⟩
      simp only [List.take_succ_cons, List.map_cons, Sys.run, h2, Option.bind_some]
      exact h4

theorem follows_next {cfg : Cfg} : ∀ {l : List Moment} {s : Sys} {i : Nat} {m m' : Moment}, Follows cfg s l → l[i]? = some m → l[i + 1]? = some m' → m'.before = m.after := by
  intro l
  induction l with
  | nil => intro s i m m' _ h; simp at h
  | cons a l ih =>
    intro s i m m' hf h h'
    obtain ⟨h1, h2, h3⟩ := hf
    cases i with
    | zero =>
      simp only [List.getElem?_cons_zero, Option.some.injEq] at h
      subst h
      cases l with
      | nil => simp at h'
      | cons b l =>
        simp only [List.getElem?_cons_succ, List.getElem?_cons_zero, Option.some.injEq] at h'
        subst h'
        exact h3.1
    | succ i => exact ih h3 (by simpa using h) (by simpa using h')

theorem at_some {l : List Moment} {i j : Nat} {m : Moment} (h : l[j]? = some m) (hij : i ≤ j) : ∃ m', l[i]? = some m' := by
  have := (List.getElem?_eq_some_iff.1 h).1
  exact ⟨_, List.getElem?_eq_getElem (by omega)⟩

/-- What holds of a state, unless a step ends it, holds later. -/
theorem follows_keep {cfg : Cfg} {l : List Moment} {s : Sys} (hf : Follows cfg s l) {P : Sys → Prop} {i j : Nat} {a b : Moment} (ha : l[i]? = some a) (hb : l[j]? = some b) (hij : i ≤ j)
    (hp : P a.before) (hn : ¬P b.before) : ∃ k m, i ≤ k ∧ k < j ∧ l[k]? = some m ∧ P m.before ∧ ¬P m.after := by
  induction j generalizing b with
  | zero =>
    have : i = 0 := by omega
    subst this
    rw [ha] at hb
    cases hb
    exact absurd hp hn
  | succ j ih =>
    by_cases h : i = j + 1
    · subst h
      rw [ha] at hb
      cases hb
      exact absurd hp hn
    · obtain ⟨c, hc⟩ := at_some hb (Nat.le_succ j)
      have he := follows_next hf hc hb
      by_cases hP : P c.before
      · exact ⟨j, c, by omega, by omega, hc, hP, he ▸ hn⟩
      · obtain ⟨k, m, h1, h2, h3⟩ := ih hc (by omega) hP
        exact ⟨k, m, h1, by omega, h3⟩

section
variable {cfg : Cfg} {n : Nat} {l : List Moment}

theorem lock_at (hf : Follows cfg (Sys.init n) l) {i : Nat} {m : Moment} (h : l[i]? = some m) : LockInv m.before ∧ LockInv m.after := by
  obtain ⟨h1, h2⟩ := follows_at hf h
  have := lock_run (lock_init n) h1
  exact ⟨this, lock_step this h2⟩

/-- A goroutine that accesses `closed` in step `i` has unlocked the mutex in a step before the access in step `j` of another. -/
theorem unlocks (hf : Follows cfg (Sys.init n) l) {i j : Nat} {a b : Moment} {g g' : Goroutine} (ha : l[i]? = some a) (hb : l[j]? = some b) (hij : i < j)
    (hg : lockIn a.before a.ev = some g ∨ a.before.inside g = true) (hg' : lockIn b.before b.ev = some g' ∨ b.before.inside g' = true) (hne : g ≠ g') :
    ∃ k m, i ≤ k ∧ k < j ∧ l[k]? = some m ∧ unlockIn m.before m.ev m.after g ∧ (k = i ∨ takesPart m.before m.ev g) := by
  by_cases hin : a.after.inside g = true
  · obtain ⟨t, rfl⟩ := inside_of hin
    obtain ⟨c, hc⟩ := at_some (i := i + 1) hb hij
    have hm : c.before.mutex = some t := by rw [follows_next hf ha hc]; exact (inside_mutex (lock_at hf ha).2 t).1 hin
    have hn : b.before.mutex ≠ some t := by
      rcases hg' with h | h
      · rw [(lockIn_free (follows_at hf hb).2 h).1]; exact fun h => by cases h
      · obtain ⟨t', rfl⟩ := inside_of h
        rw [(inside_mutex (lock_at hf hb).1 t').1 h]
        intro h'
        cases h'
        exact hne rfl
    obtain ⟨k, m, h1, h2, h3, h4, h5⟩ := follows_keep hf (P := fun s => s.mutex = some t) hc hb hij hm hn
    refine ⟨k, m, by omega, h2, h3, ⟨.inr ((inside_mutex (lock_at hf h3).1 t).2 h4), ?_⟩, .inr ?_⟩
    · rw [← Bool.not_eq_true]
      exact fun h => h5 ((inside_mutex (lock_at hf h3).2 t).1 h)
    · rcases shift_step (follows_at hf h3).2 with h | ⟨t', _, h6, h7⟩ | ⟨t', h6, _⟩
      · exact absurd (h.trans h4) h5
      · have := (inside_mutex (lock_at hf h3).1 t').1 h7
        rw [h4] at this
        cases this
        exact h6
      · rw [h4] at h6; cases h6
  · exact ⟨i, a, Nat.le_refl i, hij, ha, ⟨hg, by simpa using hin⟩, .inl rfl⟩

/-- After an `Unlock` the mutex is free. -/
theorem unlock_free (hf : Follows cfg (Sys.init n) l) {k : Nat} {m : Moment} {g : Goroutine} (h : l[k]? = some m) (hu : unlockIn m.before m.ev m.after g) : m.after.mutex = none := by
  obtain ⟨hi, hi'⟩ := lock_at hf h
  obtain ⟨hg, ho⟩ := hu
  rcases shift_step (follows_at hf h).2 with h1 | ⟨t, h1, _⟩ | ⟨t, h1, h2, h3⟩
  · rcases hg with hg | hg
    · rw [h1]; exact (lockIn_free (follows_at hf h).2 hg).1
    · obtain ⟨t, rfl⟩ := inside_of hg
      have := (inside_mutex hi t).1 hg
      rw [← h1] at this
      rw [(inside_mutex hi' t).2 this] at ho
      cases ho
  · exact h1
  · rcases hg with hg | hg
    · rw [h3] at hg
      cases hg
      rw [(inside_mutex hi' t).2 h2] at ho
      cases ho
    · obtain ⟨t', rfl⟩ := inside_of hg
      rw [(inside_mutex hi t').1 hg] at h1
      cases h1

/-- A goroutine that accesses `closed` in step `j` has locked the mutex after it was free. -/
theorem locks (hf : Follows cfg (Sys.init n) l) {k j : Nat} {m b : Moment} {g : Goroutine} (hk : l[k]? = some m) (hb : l[j]? = some b) (hkj : k < j) (hfree : m.after.mutex = none)
    (hg : lockIn b.before b.ev = some g ∨ b.before.inside g = true) :
    ∃ p c, k < p ∧ p ≤ j ∧ l[p]? = some c ∧ lockIn c.before c.ev = some g := by
  rcases hg with hg | hg
  · exact ⟨j, b, hkj, Nat.le_refl j, hb, hg⟩
  · obtain ⟨t, rfl⟩ := inside_of hg
    obtain ⟨c, hc⟩ := at_some (i := k + 1) hb hkj
    have h0 : c.before.mutex ≠ some t := by rw [follows_next hf hk hc, hfree]; exact fun h => by cases h
    obtain ⟨p, d, h1, h2, h3, h4, h5⟩ := follows_keep hf (P := fun s => s.mutex ≠ some t) hc hb hkj h0 (fun h => h ((inside_mutex (lock_at hf hb).1 t).1 hg))
    refine ⟨p, d, by omega, by omega, h3, ?_⟩
    have h5 : d.after.mutex = some t := Classical.not_not.1 h5
    rcases shift_step (follows_at hf h3).2 with h | ⟨t', h, _⟩ | ⟨t', _, h6, h7⟩
    · exact absurd (h ▸ h5) h4
    · rw [h] at h5; cases h5
    · rw [h5] at h6; cases h6; exact h7

theorem closed_ordered (hf : Follows cfg (Sys.init n) l) {i j : Nat} {a b : Moment} {g g' : Goroutine} {w w' : Bool} (ha : l[i]? = some a) (hb : l[j]? = some b)
    (h : (g, w) ∈ closedIn a.before a.ev) (h' : (g', w') ∈ closedIn b.before b.ev) (hij : i < j) (hne : g ≠ g') : HappensBefore l i g j g' := by
  obtain ⟨hp, hc⟩ := closedIn_critical h
  obtain ⟨hp', hc'⟩ := closedIn_critical h'
  obtain ⟨k, m, h1, h2, h3, h4, h5⟩ := unlocks hf ha hb hij hc hc' hne
  obtain ⟨p, c, h6, h7, h8, h9⟩ := locks hf h3 hb h2 (unlock_free hf h3 h4) hc'
  have e1 : HappensBefore l k g p g' := .mutex k p g g' m c h3 h8 h4 h9 h6
  have e2 : HappensBefore l k g j g' := by
    by_cases hpj : p = j
    · exact hpj ▸ e1
    · exact .trans k p j _ _ _ e1 (.program p j g' c b h8 hb (.inl (lockIn_free (follows_at hf h8).2 h9).2) hp' (by omega))
  by_cases hki : k = i
  · exact hki ▸ e2
  · rcases h5 with h5 | h5
    · exact absurd h5 hki
    · exact .trans i k j _ _ _ (.program i k g a m ha h3 hp h5 (by omega)) e2

/-- Only one access to `closed` in a step. -/
theorem closedIn_one {s : Sys} {e : Ev} {x y : Goroutine × Bool} (h : x ∈ closedIn s e) (h' : y ∈ closedIn s e) : x = y := by
  have key : ∀ {l : List (Goroutine × Bool)}, l.length ≤ 1 → x ∈ l → y ∈ l → x = y := by
    intro l hl hx hy
    match l with
    | [] => cases hx
    | [z] => rw [List.mem_singleton.1 hx, List.mem_singleton.1 hy]
    | _ :: _ :: _ => simp at hl
  refine key ?_ h h'
  unfold closedIn
  repeat' split
  all_goals simp

/-! ## Requests -/

/-- A step that puts a request on `writeCh`: whose it is. -/
theorem pushes_of {m : Moment} (h : pushes m = true) :
    ∃ t th r, m.ev = .thread t ∧ m.before.threads[t]? = some th ∧ th.pc = .push r ∧ m.before.writeClosed = false := by
  unfold pushes at h
  split at h
  · rename_i t he
    split at h
    · rename_i c r hp ht
      exact ⟨t, _, r, he, ht, rfl, by simpa using h⟩
    · cases h
  · cases h

theorem pushes_step {m : Moment} (h : pushes m = true) (hs : m.before.step cfg m.ev = some m.after) :
    ∃ t th r, m.ev = .thread t ∧ m.before.threads[t]? = some th ∧ th.pc = .push r ∧ m.after.writeCh = m.before.writeCh ++ [r] ∧ (t, r) ∈ acceptedIn m.after.trace := by
  obtain ⟨t, th, r, he, ht, hpc, hw⟩ := pushes_of h
  obtain ⟨s, e, s'⟩ := m
  refine ⟨t, th, r, he, ht, hpc, ?_⟩
  dsimp only at he ht hw hs ⊢
  rw [he] at hs
  unfold Sys.step at hs
  split at hs
  · cases hs
  dsimp only at hs
  unfold Sys.thread at hs
  simp only [ht, hpc] at hs
  unfold Sys.push at hs
  dsimp only at hs
  rw [if_neg (by simp [hw])] at hs
  have key : ∀ (t : Nat) (r : Req) (tr : List Obs), (t, r) ∈ acceptedIn (tr ++ [.accepted t r]) := by
    intro t r tr; rw [acceptedIn_one]; simp
  have key' : ∀ (t : Nat) (r : Req) (tr : List Obs) (x : Res), (t, r) ∈ acceptedIn (tr ++ [.accepted t r] ++ [.ret t x]) := by
    intro t r tr x; rw [acceptedIn_ret]; exact key t r tr
  split at hs
  · repeat' split at hs
    all_goals first
      | contradiction
      | cases hs
    all_goals first
      | exact ⟨rfl, key _ _ _⟩
      | exact ⟨rfl, key' _ _ _ _⟩
      | (unfold Sys.handOut; split <;> exact ⟨rfl, key' _ _ _ _⟩)
      | (unfold Sys.frameDone; repeat' split)
    all_goals first
      | exact ⟨rfl, key _ _ _⟩
      | exact ⟨rfl, key' _ _ _ _⟩
  · cases hs

theorem accepted_mono {s s' : Sys} (h : Ext s s') {x : Nat × Req} (hx : x ∈ acceptedIn s.trace) : x ∈ acceptedIn s'.trace := by
  obtain ⟨l, hl⟩ := h.trace
  rw [hl]
  unfold acceptedIn at hx ⊢
  rw [List.filterMap_append]
  exact List.mem_append_left _ hx

/-- The caller is done with its frame when it has put it on `writeCh`. -/
theorem prepared (hf : Follows cfg (Sys.init n) l) {i p : Nat} {a b : Moment} {t : Nat} {th : Thread} (ha : l[i]? = some a) (ht : a.before.threads[t]? = some th)
    (hp : th.pc = .start ∨ (∃ f, th.pc = .lock f) ∨ ∃ r, th.pc = .push r) (hb : l[p]? = some b) (hpush : pushes b = true) (he : b.ev = .thread t) : i ≤ p := by
  refine Classical.byContradiction fun hip => ?_
  obtain ⟨hr, hs⟩ := follows_at hf hb
  obtain ⟨t', th', r, he', _, _, _, hacc⟩ := pushes_step hpush hs
  rw [he] at he'
  cases he'
  obtain ⟨c, hc⟩ := at_some (i := p + 1) ha (by omega)
  rw [← follows_next hf hb hc] at hacc
  by_cases hn : (t, r) ∈ acceptedIn a.before.trace
  · exact ((all_run (follows_at hf ha).1).origin.callers t th ht).early hp r hn
  · obtain ⟨k, m, _, _, h3, h4, h5⟩ := follows_keep hf (P := fun s => (t, r) ∈ acceptedIn s.trace) hc ha (by omega) hacc hn
    exact h5 (accepted_mono (ext_step (step_cases (follows_at hf h3).2).2) h4)

/-! ## Incoming frames -/

/-- The step at which a count had a lower value. -/
theorem count_at {f : Moment → Bool} {i k : Nat} (hi : i ≤ l.length) (h : k < (l.take i).countP f) : ∃ j m, j < i ∧ l[j]? = some m ∧ f m = true ∧ (l.take j).countP f = k := by
  induction i with
  | zero => simp at h
  | succ i ih =>
    have hl : i < l.length := hi
    rw [List.take_succ_eq_append_getElem hl, List.countP_append] at h
    by_cases hk : k < (l.take i).countP f
    · obtain ⟨j, m, h1, h2⟩ := ih (by omega) hk
      exact ⟨j, m, by omega, h2⟩
    · by_cases hfi : f l[i] = true
      · have : [l[i]].countP f = 1 := by simp [hfi]
        exact ⟨i, l[i], by omega, List.getElem?_eq_getElem hl, hfi, by omega⟩
      · have : [l[i]].countP f = 0 := by simp [hfi]
        omega

theorem takes_loop {m : Moment} (h : takes m = true) : m.ev.goroutine = .loop := by
  unfold takes at h
  split at h
  · rename_i he; rw [he]; rfl
  · cases h

/-! ## The ERROR frame of `sendError` -/

/-- `processLoop` is in `sendError`, or done. -/
def Sunk (s : Sys) : Prop := failing s ∨ s.loop = .done

theorem sunk_same {s s' : Sys} (hs : Sunk s) (h : s'.loop = s.loop) : Sunk s' ∧ (s.loop = .done → s'.loop = .done) := by
  unfold Sunk failing at *
  rw [h]
  exact ⟨hs, id⟩

theorem sunk_select {s : Sys} (hs : Sunk s) (h : s.loop = .select) : False := by
  rcases hs with ⟨_, _, h'⟩ | h'
  · rw [h] at h'; cases h'
  · rw [h] at h'; cases h'

theorem sunk_step {s s' : Sys} (h : Step cfg s s') (hs : Sunk s) : Sunk s' ∧ (s.loop = .done → s'.loop = .done) := by
  cases h with
  | giveReceipt hl hc h1 => rcases hs with ⟨_, _, h'⟩ | h' <;> (rw [hl] at h'; cases h')
  | giveMessage hl hc h1 => rcases hs with ⟨_, _, h'⟩ | h' <;> (rw [hl] at h'; cases h')
  | giveErr hl hc h1 => rcases hs with ⟨_, _, h'⟩ | h' <;> (rw [hl] at h'; cases h')
  | finErrs hl => rcases hs with ⟨_, _, h'⟩ | h' <;> (rw [hl] at h'; cases h')
  | giveFail hl hc h1 => exact ⟨.inl ⟨_, _, rfl⟩, fun h' => by rw [hl] at h'; cases h'⟩
  | finClosed hl hm => exact ⟨.inr rfl, fun _ => rfl⟩
  | finCrash hl hm => exact sunk_same hs rfl
  | finFail hl hm => exact ⟨.inr rfl, fun _ => rfl⟩
  | fail h => exact (sunk_select hs h).elim
  | readSkip h => exact (sunk_select hs h).elim
  | readReceipt h => exact (sunk_select hs h).elim
  | readMissing h => exact (sunk_select hs h).elim
  | readErr h => exact (sunk_select hs h).elim
  | readMessage h => exact (sunk_select hs h).elim
  | takeQuiet h => exact (sunk_select hs h).elim
  | takeSent h => exact (sunk_select hs h).elim
  | takeFail h => exact (sunk_select hs h).elim
  | beat h => exact (sunk_select hs h).elim
  | frameClosed => exact sunk_same hs (rests_frameDone _ _ _ _).1
  | waitClosed => exact sunk_same hs (rests_frameDone _ _ _ _).1
  | frameTimeout => exact sunk_same hs (rests_frameDone _ _ _ _).1
  | pushFrameRet => exact sunk_same hs (rests_frameDone _ _ _ _).1
  | @pushSub t th r n =>
    refine sunk_same hs ?_
    show (Sys.handOut _ n).loop = _
    unfold Sys.handOut
    split <;> rfl
  | unsub ht hcall hb hpc h => exact sunk_same hs (unsub_spec h).1.loop
  | helper ht hcall hb h => exact sunk_same hs (helper_spec h).1.loop
  | sub h => exact sunk_same hs (subStep_spec h).1.loop
  | _ => exact sunk_same hs rfl

/-- `sendError` is entered at most once, and nobody is told before. -/
theorem failure_first (hf : Follows cfg (Sys.init n) l) {i j : Nat} {a b : Moment} (ha : l[i]? = some a) (hb : l[j]? = some b) (h : ¬failing a.before) (h' : failing a.after)
    (hj : failing b.before) : i < j := by
  refine Classical.byContradiction fun hij => ?_
  have hs : Sunk a.before := by
    refine Classical.byContradiction fun hn => ?_
    obtain ⟨k, m, _, _, h3, h4, h5⟩ := follows_keep hf (P := Sunk) hb ha (by omega) (.inl hj) hn
    exact h5 (sunk_step (step_cases (follows_at hf h3).2).2 h4).1
  rcases hs with hs | hs
  · exact h hs
  · have := (sunk_step (step_cases (follows_at hf ha).2).2 (.inr hs)).2 hs
    obtain ⟨_, _, h'⟩ := h'
    rw [this] at h'
    cases h'

theorem thread_loop {s s' : Sys} {t : Nat} (h : s.thread cfg t = some s') : s'.loop = s.loop := by
  unfold Sys.thread at h
  split at h
  · cases h
  rename_i th ht
  have hf : ∀ {f : Frame}, s.frameEnter t th.call f = some s' → s'.loop = s.loop := by
    intro f h
    unfold Sys.frameEnter at h
    repeat' split at h
    all_goals first
      | contradiction
      | simp only [Option.some.injEq] at h
    all_goals subst h
    · exact (rests_frameDone _ _ _ _).1
    · rfl
    · rfl
  split at h
  · cases hcall : th.call with
    | frame f => exact hf (f := f) (by rw [hcall] at h ⊢; exact h)
    | _ =>
      rw [hcall] at h
      simp only [Sys.begin] at h
      repeat' split at h
      all_goals first
        | contradiction
        | simp only [Option.some.injEq] at h
      all_goals subst h
      all_goals rfl
  · exact hf h
  · unfold Sys.push at h
    split at h
    · simp only [Option.some.injEq] at h; subst h; rfl
    split at h
    · dsimp only at h
      split at h
      all_goals first
        | contradiction
        | simp only [Option.some.injEq] at h
      all_goals subst h
      all_goals first
        | rfl
        | exact (rests_frameDone _ _ _ _).1
        | exact (handOut_spec _ _).1.loop
    · cases h
  · unfold Sys.waitClosed at h
    repeat' split at h
    all_goals first
      | contradiction
      | simp only [Option.some.injEq] at h
    all_goals subst h
    · rfl
    · rfl
    · exact (rests_frameDone _ _ _ _).1
  · cases h
  · repeat' split at h
    all_goals first
      | contradiction
      | exact (unsub_spec h).1.loop

theorem timeout_loop {s s' : Sys} {t : Nat} (h : s.timeout cfg t = some s') : s'.loop = s.loop ∧ s'.writeCh = s.writeCh := by
  unfold Sys.timeout at h
  split at h
  · cases h
  repeat' split at h
  all_goals first
    | contradiction
    | simp only [Option.some.injEq] at h
  all_goals subst h
  all_goals first
    | exact ⟨rfl, rfl⟩
    | exact ⟨(frameDone_spec _ _ _ _).choose_spec.1.loop, (frameDone_spec _ _ _ _).choose_spec.1.writeCh⟩

/-- Only `processLoop` enters `sendError`. -/
theorem fail_loop {s s' : Sys} {e : Ev} (h : s.step cfg e = some s') (h1 : ¬failing s) (h2 : failing s') : e.goroutine = .loop := by
  have key : s'.loop = s.loop → False := fun h => h1 (by unfold failing at h2 ⊢; rw [h] at h2; exact h2)
  unfold Sys.step at h
  split at h
  · cases h
  cases e with
  | thread t => exact (key (thread_loop h)).elim
  | timeout t => exact (key (timeout_loop h).1).elim
  | helper t => exact (key (helper_spec h).1.loop).elim
  | sub i => exact (key (subStep_spec h).1.loop).elim
  | loopRead | loopWrite | loopBeat | loopTimeout | deliver | finish => rfl
  | _ =>
    dsimp only at h
    repeat' split at h
    all_goals first
      | contradiction
      | (simp only [Option.some.injEq] at h; subst h; exact (key rfl).elim)

/-! ## The order -/

theorem ordered (hf : Follows cfg (Sys.init n) l) {i j : Nat} {g g' : Goroutine} {c : Cell} {w w' : Bool} (h : Touches l i g c w) (h' : Touches l j g' c w') (hne : g ≠ g')
    (hw : w = true ∨ w' = true) : HappensBefore l i g j g' ∨ HappensBefore l j g' i g := by
  have request : ∀ {i j p : Nat} {a m : Moment} {t : Nat} {th : Thread}, l[i]? = some a → a.ev = .thread t → a.before.threads[t]? = some th →
      (th.pc = .start ∨ (∃ f, th.pc = .lock f) ∨ ∃ r, th.pc = .push r) → Corresponds pushes pops l p j → l[p]? = some m → m.ev = .thread t →
      HappensBefore l i (.caller t) j .loop := by
    intro i j p a m t th ha he ht hp hc hm hem
    obtain ⟨m', hm', hpush⟩ := hc.1
    rw [hm] at hm'
    cases hm'
    have hip := prepared hf ha ht hp hm hpush hem
    have e1 : HappensBefore l p (.caller t) j .loop := by
      have := HappensBefore.writeCh p j hc m hm
      rw [hem] at this
      exact this
    by_cases hi : i = p
    · exact hi ▸ e1
    · exact .trans i p j _ _ _ (.program i p (.caller t) a m ha hm (.inl (by rw [he]; rfl)) (.inl (by rw [hem]; rfl)) (by omega)) e1
  have incoming : ∀ {i k : Nat} {a m : Moment} {ok : Bool} {g : Goroutine}, l[i]? = some a → brings a = true → l[k]? = some m → m.ev = .deliver ok → m.before.receiver = some g →
      (l.take i).countP brings + 1 = (l.take k).countP takes → HappensBefore l i .read k g := by
    intro i k a m ok g ha hr hm he hg hc
    have hk := (List.getElem?_eq_some_iff.1 hm).1
    obtain ⟨q, b, h1, h2, h3, h4⟩ := count_at (l := l) (f := takes) (i := k) (k := (l.take i).countP brings) (by omega) (by omega)
    have e1 : HappensBefore l i .read q .loop := .readCh i q ⟨⟨a, ha, hr⟩, ⟨b, h2, h3⟩, h4.symm⟩
    have e2 : HappensBefore l q .loop k .loop := .program q k .loop b m h2 hm (.inl (takes_loop h3)) (.inl (by rw [he]; rfl)) h1
    exact .trans i q k _ _ _ e1 (.trans q k k _ _ _ e2 (.send k m hm ok he g hg))
  have failure : ∀ {i j : Nat} {a m : Moment} {ok : Bool} {g : Goroutine}, l[i]? = some a → ¬failing a.before → failing a.after → l[j]? = some m → m.ev = .deliver ok →
      m.before.receiver = some g → failing m.before → HappensBefore l i .loop j g := by
    intro i j a m ok g ha h1 h2 hm he hg h3
    have hij := failure_first hf ha hm h1 h2 h3
    have hl : a.ev.goroutine = .loop := fail_loop (follows_at hf ha).2 h1 h2
    exact .trans i j j _ _ _ (.program i j .loop a m ha hm (.inl hl) (.inl (by rw [he]; rfl)) hij) (.send j m hm ok he g hg)
  cases h with
  | closed i a ha g w hc =>
    cases h' with
    | closed j b hb g' w' hc' =>
      rcases Nat.lt_trichotomy i j with hij | rfl | hij
      · exact .inl (closed_ordered hf ha hb hc hc' hij hne)
      · rw [ha] at hb
        cases hb
        have := closedIn_one hc hc'
        cases this
        exact absurd rfl hne
      · exact .inr (closed_ordered hf hb ha hc' hc hij (Ne.symm hne))
  | prepare i a ha t th he ht hp =>
    cases h' with
    | prepare => exact absurd rfl hne
    | process p j hc m hm t he' => exact .inl (request ha he ht hp hc hm he')
  | process p i hc m hm t he' =>
    cases h' with
    | prepare j a ha t th he ht hp => exact .inr (request ha he ht hp hc hm he')
    | process => exact absurd rfl hne
  | arrive i a ha hr =>
    generalize hn : (l.take i).countP brings = k at h'
    cases h' with
    | arrive => exact absurd rfl hne
    | look j b hb hr' => exact .inl (.readCh i j ⟨⟨a, ha, hr⟩, ⟨b, hb, hr'⟩, hn⟩)
    | answer j b hb ok he g hg hf' _ hk => exact .inl (incoming ha hr hb he hg (by omega))
  | look i a ha hr =>
    generalize hn : (l.take i).countP takes = k at h'
    cases h' with
    | arrive j b hb hr' => exact .inr (.readCh j i ⟨⟨b, hb, hr'⟩, ⟨a, ha, hr⟩, hn.symm⟩)
    | look => simp at hw
    | answer => simp at hw
  | answer i a ha ok he g hg hf' k hk =>
    generalize hn : k = k' at h'
    cases h' with
    | arrive j b hb hr' => exact .inr (incoming hb hr' ha he hg (by omega))
    | look => simp at hw
    | answer => simp at hw
  | fail i a ha h1 h2 =>
    cases h' with
    | fail => exact absurd rfl hne
    | told j b hb ok he g hg h3 => exact .inl (failure ha h1 h2 hb he hg h3)
  | told i a ha ok he g hg h3 =>
    cases h' with
    | fail j b hb h1 h2 => exact .inr (failure hb h1 h2 ha he hg h3)
    | told => simp at hw

/-! ## The channels are first in, first out -/

/-- What the step puts on `writeCh`. -/
def pushed (m : Moment) : Option Req :=
  match m.ev with
  | .thread t =>
    match m.before.threads[t]? with
    | some ⟨_, .push r, _⟩ => if m.before.writeClosed then none else some r
    | _ => none
  | _ => none

/-- What it takes from it. -/
def popped (m : Moment) : Option Req :=
  match m.ev with
  | .loopWrite _ _ => m.before.writeCh.head?
  | _ => none

/-- What the step puts on `readCh`. -/
def gotten (m : Moment) : Option (Option Frame) :=
  match m.ev with
  | .net x => some x
  | _ => none

/-- What it takes from it. -/
def taken (m : Moment) : Option (Option Frame) :=
  match m.ev with
  | .loopRead _ => m.before.readCh.head?
  | _ => none

theorem pushed_iff (m : Moment) : pushes m = (pushed m).isSome := by
  obtain ⟨s, e, s'⟩ := m
  cases e with
  | thread t =>
    simp only [pushes, pushed]
    cases s.threads[t]? with
    | none => rfl
    | some th =>
      obtain ⟨c, p, h⟩ := th
      cases p <;> first | rfl | (cases s.writeClosed <;> rfl)
  | _ => rfl

theorem popped_iff (m : Moment) : pops m = (popped m).isSome := by
  obtain ⟨s, e, s'⟩ := m
  cases e with
  | loopWrite ok o =>
    simp only [pops, popped]
    cases s.writeCh <;> rfl
  | _ => rfl

theorem gotten_iff (m : Moment) : brings m = (gotten m).isSome := by
  obtain ⟨s, e, s'⟩ := m
  cases e <;> rfl

theorem taken_iff (m : Moment) : takes m = (taken m).isSome := by
  obtain ⟨s, e, s'⟩ := m
  cases e with
  | loopRead o =>
    simp only [takes, taken]
    cases s.readCh <;> rfl
  | _ => rfl

/-- A channel: what it holds, what steps put on it, what they take. -/
structure Channel (cfg : Cfg) (α : Type) where
  queue : Sys → List α
  put : Moment → Option α
  get : Moment → Option α
  init : ∀ n, queue (Sys.init n) = []
  head : ∀ m x, get m = some x → (queue m.before).head? = some x
  step : ∀ m : Moment, m.before.step cfg m.ev = some m.after → queue m.before ++ (put m).toList = (get m).toList ++ queue m.after

theorem channel_at {α : Type} (c : Channel cfg α) : ∀ {l : List Moment} {s : Sys} {j : Nat} {m : Moment}, Follows cfg s l → l[j]? = some m →
    c.queue s ++ (l.take j).filterMap c.put = (l.take j).filterMap c.get ++ c.queue m.before := by
  intro l
  induction l with
  | nil => intro s j m _ h; simp at h
  | cons a l ih =>
    intro s j m hf h
    obtain ⟨h1, h2, h3⟩ := hf
    cases j with
    | zero =>
      simp only [List.getElem?_cons_zero, Option.some.injEq] at h
      subst h
      simp [h1]
    | succ j =>
      have := ih h3 (by simpa using h)
      have hs := c.step a (by rw [h1]; exact h2)
      rw [h1] at hs
      simp only [List.take_succ_cons, List.filterMap_cons]
      rcases hp : c.put a with _ | x <;> rcases hg : c.get a with _ | y <;> rw [hp, hg] at hs <;> simp only [Option.toList] at hs <;> dsimp only
      · rw [show c.queue s = c.queue a.after by simpa using hs]
        exact this
      · rw [show c.queue s = y :: c.queue a.after by simpa using hs, List.cons_append, List.cons_append, this]
      · rw [show c.queue s ++ x :: (l.take j).filterMap c.put = (c.queue s ++ [x]) ++ (l.take j).filterMap c.put by simp, hs, List.nil_append]
        exact this
      · rw [show c.queue s ++ x :: (l.take j).filterMap c.put = (c.queue s ++ [x]) ++ (l.take j).filterMap c.put by simp, hs, List.append_assoc, this]
        rfl

theorem count_filterMap {α : Type} {f : Moment → Option α} {p : Moment → Bool} (h : ∀ m, p m = (f m).isSome) (l : List Moment) : l.countP p = (l.filterMap f).length := by
  induction l with
  | nil => rfl
  | cons a l ih =>
    rw [List.countP_cons, List.filterMap_cons, ih, h a]
    cases f a <;> simp

/-- What is put on a channel by the `n`-th step that does so is what is taken by the `n`-th step that takes something. -/
theorem fifo {α : Type} (c : Channel cfg α) {sends receives : Moment → Bool} (hs : ∀ m, sends m = (c.put m).isSome) (hr : ∀ m, receives m = (c.get m).isSome)
    (hf : Follows cfg (Sys.init n) l) {p j : Nat} (h : Corresponds sends receives l p j) :
    p < j ∧ ∃ a b x, l[p]? = some a ∧ l[j]? = some b ∧ c.put a = some x ∧ c.get b = some x := by
  obtain ⟨⟨a, ha, hsa⟩, ⟨b, hb, hrb⟩, hcount⟩ := h
  rw [hs] at hsa
  rw [hr] at hrb
  obtain ⟨x, hx⟩ := Option.isSome_iff_exists.1 hsa
  obtain ⟨y, hy⟩ := Option.isSome_iff_exists.1 hrb
  have hq := channel_at c hf hb
  rw [c.init, List.nil_append] at hq
  rw [count_filterMap hs, count_filterMap hr] at hcount
  have hh := c.head b y hy
  obtain ⟨rest, hrest⟩ : ∃ rest, c.queue b.before = y :: rest := by
    cases hq : c.queue b.before with
    | nil => rw [hq] at hh; cases hh
    | cons z rest => rw [hq] at hh; cases hh; exact ⟨rest, rfl⟩
  rw [hrest] at hq
  have hlt : p < j := by
    refine Classical.byContradiction fun hpj => ?_
    obtain ⟨d, rfl⟩ := Nat.le.dest (Nat.le_of_not_lt hpj)
    rw [List.take_add, List.filterMap_append, hq] at hcount
    simp only [List.length_append, List.length_cons] at hcount
    omega
  refine ⟨hlt, a, b, x, ha, hb, hx, ?_⟩
  obtain ⟨d, rfl⟩ := Nat.le.dest hlt
  have hp := (List.getElem?_eq_some_iff.1 ha).1
  have hpa : l[p] = a := (List.getElem?_eq_some_iff.1 ha).2
  generalize (l.take (p.succ + d)).filterMap c.get = R at hq hcount
  rw [List.take_add, List.take_succ_eq_append_getElem hp, hpa, List.filterMap_append, List.filterMap_append, List.append_assoc] at hq
  have := (List.append_inj hq hcount).2
  simp only [List.filterMap_cons, hx, List.filterMap_nil, List.cons_append, List.cons.injEq] at this
  rw [hy, this.1]

theorem thread_writeCh {s s' : Sys} {t : Nat} (h : s.thread cfg t = some s') (hp : ∀ th r, s.threads[t]? = some th → th.pc ≠ .push r) : s'.writeCh = s.writeCh := by
  unfold Sys.thread at h
  split at h
  · cases h
  rename_i th ht
  have hf : ∀ {f : Frame}, s.frameEnter t th.call f = some s' → s'.writeCh = s.writeCh := by
    intro f h
    unfold Sys.frameEnter at h
    repeat' split at h
    all_goals first
      | contradiction
      | simp only [Option.some.injEq] at h
    all_goals subst h
    · exact (frameDone_spec _ _ _ _).choose_spec.1.writeCh
    · rfl
    · rfl
  split at h
  · cases hcall : th.call with
    | frame f => exact hf (f := f) (by rw [hcall] at h ⊢; exact h)
    | _ =>
      rw [hcall] at h
      simp only [Sys.begin] at h
      repeat' split at h
      all_goals first
        | contradiction
        | simp only [Option.some.injEq] at h
      all_goals subst h
      all_goals rfl
  · exact hf h
  · exact absurd (by assumption) (hp th _ ht)
  · unfold Sys.waitClosed at h
    repeat' split at h
    all_goals first
      | contradiction
      | simp only [Option.some.injEq] at h
    all_goals subst h
    · rfl
    · rfl
    · exact (frameDone_spec _ _ _ _).choose_spec.1.writeCh
  · cases h
  · repeat' split at h
    all_goals first
      | contradiction
      | exact (unsub_spec h).1.writeCh

theorem closeChan_chs (s : Sys) (n : Nat) : (s.closeChan n).writeCh = s.writeCh ∧ (s.closeChan n).readCh = s.readCh := by
  unfold Sys.closeChan
  split <;> exact ⟨rfl, rfl⟩

theorem deliver_writeCh {s s' : Sys} {b : Bool} (h : s.deliver b = some s') : s'.writeCh = s.writeCh := by
  unfold Sys.deliver at h
  repeat' split at h
  all_goals first
    | contradiction
    | (simp only [Option.some.injEq] at h; subst h; rfl)
    | skip
  all_goals
    obtain ⟨s1, h1, h2⟩ := Option.map_eq_some_iff.1 h
    subst h2
    have hk : s1.writeCh = s.writeCh := handOver_writeCh h1
    first
      | exact hk
      | exact (closeChan_chs _ _).1.trans hk

theorem failWith_chs {s s' : Sys} {x : Bytes} {o : List Nat} (h : s.failWith x o = some s') : s'.writeCh = s.writeCh ∧ s'.readCh = s.readCh := by
  unfold Sys.failWith at h
  split at h
  · cases h; exact ⟨rfl, rfl⟩
  · cases h

theorem loopRead_chs {s s' : Sys} {o : List Nat} (h : s.loopRead o = some s') : s'.writeCh = s.writeCh ∧ s'.readCh = s.readCh.tail := by
  unfold Sys.loopRead at h
  dsimp only at h
  split at h
  · rename_i hr
    split at h
    · have := failWith_chs h; exact ⟨this.1, by rw [this.2, hr]; rfl⟩
    · cases h
  · rename_i hr; cases h; exact ⟨rfl, by rw [hr]; rfl⟩
  · rename_i hr
    rw [hr]
    repeat' split at h
    all_goals first
      | contradiction
      | exact ⟨(failWith_chs h).1, (failWith_chs h).2⟩
      | (cases h; exact ⟨rfl, rfl⟩)

theorem loopWrite_chs {s s' : Sys} {k : Bool} {o : List Nat} (h : s.loopWrite k o = some s') : s'.writeCh = s.writeCh.tail := by
  unfold Sys.loopWrite at h
  split at h
  · rename_i hr
    split at h
    · rw [(failWith_chs h).1, hr]; rfl
    · cases h
  · rename_i r rest hr
    have key : (s.takeReq r rest).1.writeCh = rest := by
      unfold Sys.takeReq
      dsimp only
      split
      · exact (closeChan_chs _ _).1
      · rfl
    rw [hr]
    rcases htr : s.takeReq r rest with ⟨s1, _ | f⟩
    all_goals rw [htr] at h key
    all_goals dsimp only at h key
    · cases h; exact key
    · repeat' split at h
      · cases h
      · cases h; exact key
      · exact (failWith_chs h).1.trans key

theorem loopBeat_chs {s s' : Sys} {k : Bool} {o : List Nat} (h : s.loopBeat cfg k o = some s') : s'.writeCh = s.writeCh ∧ s'.readCh = s.readCh := by
  unfold Sys.loopBeat at h
  repeat' split at h
  all_goals first
    | contradiction
    | exact failWith_chs h
    | (cases h; exact ⟨rfl, rfl⟩)

/-- `writeCh` changes only in steps that push or pop. -/
theorem writeCh_step (m : Moment) (h : m.before.step cfg m.ev = some m.after) : m.before.writeCh ++ (pushed m).toList = (popped m).toList ++ m.after.writeCh := by
  by_cases hpush : pushes m = true
  · obtain ⟨t, th, r, he, ht, hpc, hw, _⟩ := pushes_step hpush h
    have h1 : pushed m = some r := by
      obtain ⟨c, p, hp⟩ := th
      dsimp only at hpc
      subst hpc
      obtain ⟨_, _, _, he', _, _, hwc⟩ := pushes_of hpush
      simp [pushed, he, ht, hwc]
    have h2 : popped m = none := by simp [popped, he]
    rw [h1, h2, hw]
    rfl
  · have h1 : pushed m = none := by
      rw [pushed_iff] at hpush
      simpa using hpush
    rw [h1]
    obtain ⟨s, e, s'⟩ := m
    dsimp only at h ⊢
    rw [Option.toList, List.append_nil]
    have same : s'.writeCh = s.writeCh → (∀ ok o, e ≠ .loopWrite ok o) → s.writeCh = (popped ⟨s, e, s'⟩).toList ++ s'.writeCh := by
      intro h1 h2
      have : popped ⟨s, e, s'⟩ = none := by
        unfold popped
        cases e <;> first | rfl | exact absurd rfl (h2 _ _)
      rw [this, h1]
      rfl
    unfold Sys.step at h
    split at h
    · cases h
    cases e with
    | thread t =>
      dsimp only at h
      by_cases hw : s.writeClosed = true ∧ ∃ th r, s.threads[t]? = some th ∧ th.pc = .push r
      · obtain ⟨hw, th, r, ht, hpc⟩ := hw
        unfold Sys.thread at h
        simp only [ht, hpc, Sys.push, hw, if_true, Option.some.injEq] at h
        exact same (by rw [← h]; rfl) (by simp)
      · refine same (thread_writeCh h fun th r ht hpc => ?_) (by simp)
        obtain ⟨c, p, hp⟩ := th
        dsimp only at hpc
        subst hpc
        simp only [pushes, ht] at hpush
        exact hw ⟨by simpa using hpush, _, r, ht, rfl⟩
    | timeout t => exact same (timeout_loop h).2 (by simp)
    | helper t => exact same (helper_spec h).1.writeCh (by simp)
    | sub i => exact same (subStep_spec h).1.writeCh (by simp)
    | deliver b => exact same (deliver_writeCh h) (by simp)
    | loopWrite ok o =>
      dsimp only at h
      split at h
      · rw [loopWrite_chs h]
        simp only [popped]
        cases s.writeCh <;> rfl
      · cases h
    | _ =>
      dsimp only at h
      try unfold Sys.finish at h
      repeat' split at h
      all_goals first
        | contradiction
        | exact same (loopRead_chs h).1 (by simp)
        | exact same (loopBeat_chs h).1 (by simp)
        | exact same (failWith_chs h).1 (by simp)
        | (simp only [Option.some.injEq] at h; subst h; exact same rfl (by simp))

/-- `readCh` changes only in steps that read or take. -/
theorem readCh_step (m : Moment) (h : m.before.step cfg m.ev = some m.after) : m.before.readCh ++ (gotten m).toList = (taken m).toList ++ m.after.readCh := by
  obtain ⟨s, e, s'⟩ := m
  dsimp only at h ⊢
  have same : s'.readCh = s.readCh → (∀ o, e ≠ .loopRead o) → (∀ x, e ≠ .net x) → s.readCh ++ (gotten ⟨s, e, s'⟩).toList = (taken ⟨s, e, s'⟩).toList ++ s'.readCh := by
    intro h1 h2 h3
    have a : taken ⟨s, e, s'⟩ = none := by
      unfold taken
      cases e <;> first | rfl | exact absurd rfl (h2 _)
    have b : gotten ⟨s, e, s'⟩ = none := by
      unfold gotten
      cases e <;> first | rfl | exact absurd rfl (h3 _)
    rw [a, b, h1, Option.toList, List.append_nil]
    rfl
  unfold Sys.step at h
  split at h
  · cases h
  cases e with
  | thread t => exact same (thread_readCh h) (by simp) (by simp)
  | timeout t => exact same (timeout_readCh h) (by simp) (by simp)
  | helper t => exact same (helper_spec h).1.readCh (by simp) (by simp)
  | sub i => exact same (subStep_spec h).1.readCh (by simp) (by simp)
  | deliver b => exact same (deliver_readCh h) (by simp) (by simp)
  | net x =>
    dsimp only at h
    repeat' split at h
    all_goals first
      | contradiction
      | (cases h; rfl)
  | loopRead o =>
    dsimp only at h
    split at h
    · rw [(loopRead_chs h).2]
      simp only [taken, gotten, Option.toList, List.append_nil]
      cases s.readCh <;> rfl
    · cases h
  | _ =>
    dsimp only at h
    try unfold Sys.finish at h
    repeat' split at h
    all_goals first
      | contradiction
      | exact same (loopWrite_cases h).1 (by simp) (by simp)
      | exact same (loopBeat_chs h).2 (by simp) (by simp)
      | exact same (failWith_chs h).2 (by simp) (by simp)
      | (simp only [Option.some.injEq] at h; subst h; exact same rfl (by simp) (by simp))

def writeChannel (cfg : Cfg) : Channel cfg Req where
  queue := (·.writeCh)
  put := pushed
  get := popped
  init _ := rfl
  head m x h := by
    unfold popped at h
    split at h
    · exact h
    · cases h
  step := writeCh_step

def readChannel (cfg : Cfg) : Channel cfg (Option Frame) where
  queue := (·.readCh)
  put := gotten
  get := taken
  init _ := rfl
  head m x h := by
    unfold taken at h
    split at h
    · exact h
    · cases h
  step := readCh_step

/-! ## What happens before is a strict order -/

theorem receiver_ne_loop {s : Sys} {g : Goroutine} (h : s.receiver = some g) : g ≠ .loop := by
  unfold Sys.receiver at h
  repeat' split at h
  all_goals first
    | contradiction
    | (cases h; exact fun h => by cases h)

theorem earlier (hf : Follows cfg (Sys.init n) l) {i j : Nat} {g g' : Goroutine} (h : HappensBefore l i g j g') : i < j ∨ i = j ∧ g = .loop ∧ g' ≠ .loop := by
  induction h with
  | program i j g a b ha hb h h' hij => exact .inl hij
  | mutex i j g g' a b ha hb h h' hij => exact .inl hij
  | writeCh i j h a ha => exact .inl (fifo (writeChannel cfg) pushed_iff popped_iff hf h).1
  | readCh i j h => exact .inl (fifo (readChannel cfg) gotten_iff taken_iff hf h).1
  | send i m hm ok he g hg => exact .inr ⟨rfl, rfl, receiver_ne_loop hg⟩
  | trans i j k g g' g'' h h' ih ih' =>
    rcases ih with h1 | ⟨h1, h2, h3⟩ <;> rcases ih' with h4 | ⟨h4, h5, h6⟩
    · exact .inl (by omega)
    · exact .inl (by omega)
    · exact .inl (by omega)
    · exact absurd h5 h3

/-! ## The frame `processLoop` hands over is the one it took last -/

theorem inHand_select {s : Sys} {f : Frame} (h : InHand s f) : s.loop ≠ .select := by
  rcases h with ⟨_, _, h⟩ | ⟨_, h⟩ | ⟨_, h⟩ <;> (rw [h]; exact fun h => by cases h)

theorem inHand_fail {s s' : Sys} {x : Bytes} {o : List Nat} {f : Frame} (h : s.failWith x o = some s') (hi : InHand s' f) : False := by
  have := (failWith_eff h).2.2
  rcases hi with ⟨_, _, h⟩ | ⟨_, h⟩ | ⟨_, h⟩ <;> (rw [this] at h; cases h)

theorem inHand_loop {s' : Sys} {f : Frame} {p : LoopPc} (hi : InHand s' f) (h : s'.loop = p) (hp : p = .select ∨ p = .done ∨ (∃ x o, p = .fail x o)) : False := by
  rcases hp with rfl | rfl | ⟨_, _, rfl⟩ <;> rcases hi with ⟨_, _, h'⟩ | ⟨_, h'⟩ | ⟨_, h'⟩ <;> (rw [h] at h'; cases h')

theorem loopRead_inHand {s s' : Sys} {o : List Nat} {f : Frame} (hl : s.loop = .select) (h : s.loopRead o = some s') (hi : InHand s' f) : s.readCh.head? = some (some f) := by
  unfold Sys.loopRead at h
  dsimp only at h
  split at h
  · split at h
    · exact (inHand_fail h hi).elim
    · cases h
  · cases h; exact (inHand_loop hi hl (.inl rfl)).elim
  · rename_i x rest hr
    rw [hr]
    repeat' split at h
    all_goals first
      | contradiction
      | exact (inHand_fail h hi).elim
      | (cases h; exact (inHand_loop hi hl (.inl rfl)).elim)
      | skip
    all_goals simp only [Option.some.injEq] at h
    all_goals subst h
    all_goals first
      | exact (inHand_loop hi hl (.inl rfl)).elim
      | (rcases hi with ⟨_, _, h'⟩ | ⟨_, h'⟩ | ⟨_, h'⟩ <;> cases h' <;> rfl)

theorem loopWrite_end {s s' : Sys} {k : Bool} {o : List Nat} (h : s.loopWrite k o = some s') : s'.loop = s.loop ∨ ∃ x o, s'.loop = .fail x o := by
  unfold Sys.loopWrite at h
  split at h
  · split at h
    · exact .inr ⟨_, _, (failWith_eff h).2.2⟩
    · cases h
  · rename_i r rest hr
    have key : (s.takeReq r rest).1.loop = s.loop := (takeReq_spec s r rest).2.2.2.2.2.1
    rcases htr : s.takeReq r rest with ⟨s1, _ | f⟩
    all_goals rw [htr] at h key
    all_goals dsimp only at h key
    · cases h; exact .inl key
    · repeat' split at h
      · cases h
      · cases h; exact .inl key
      · exact .inr ⟨_, _, (failWith_eff h).2.2⟩

theorem handOver_deliver {s s' : Sys} {b : Bool} {f : Frame} (h : s.deliver b = some s') (hi : InHand s' f) : InHand s f := by
  unfold Sys.deliver at h
  split at h
  case h_5 => cases h
  all_goals rename_i hl
  all_goals split at h
  all_goals first
    | (cases h; exact hi)
    | skip
  all_goals obtain ⟨s1, h1, rfl⟩ := Option.map_eq_some_iff.1 h
  · exact (inHand_loop hi (closeChan_spec _ _).2.2.2.2.2.1 (.inl rfl)).elim
  · exact (inHand_loop hi rfl (.inl rfl)).elim
  · rcases hi with ⟨_, _, h'⟩ | ⟨_, h'⟩ | ⟨_, h'⟩ <;> rw [(closeChan_spec _ _).2.2.2.2.2.1] at h' <;> cases h'
    exact .inr (.inr ⟨_, hl⟩)
  · exact (inHand_loop hi rfl (.inr (.inr ⟨_, _, rfl⟩))).elim

theorem inHand_step (m : Moment) (h : m.before.step cfg m.ev = some m.after) {f : Frame} (hi : InHand m.after f) :
    (InHand m.before f ∧ takes m = false) ∨ taken m = some (some f) := by
  obtain ⟨s, e, s'⟩ := m
  dsimp only at h hi ⊢
  have same : s'.loop = s.loop → (∀ o, e ≠ .loopRead o) → (InHand s f ∧ takes ⟨s, e, s'⟩ = false) ∨ taken ⟨s, e, s'⟩ = some (some f) := by
    intro h1 h2
    refine .inl ⟨by unfold InHand at hi ⊢; rw [← h1]; exact hi, ?_⟩
    unfold takes
    cases e <;> first | rfl | exact absurd rfl (h2 _)
  unfold Sys.step at h
  split at h
  · cases h
  cases e with
  | thread t => exact same (thread_loop h) (by simp)
  | timeout t => exact same (timeout_loop h).1 (by simp)
  | helper t => exact same (helper_spec h).1.loop (by simp)
  | sub i => exact same (subStep_spec h).1.loop (by simp)
  | deliver b => exact .inl ⟨handOver_deliver h hi, rfl⟩
  | loopRead o =>
    dsimp only at h
    split at h
    · exact .inr (loopRead_inHand (by assumption) h hi)
    · cases h
  | loopWrite ok o =>
    dsimp only at h
    split at h
    · rename_i hl
      rcases loopWrite_end h with h1 | ⟨x, o', h1⟩
      · exact (inHand_loop hi (h1.trans hl) (.inl rfl)).elim
      · exact (inHand_loop hi h1 (.inr (.inr ⟨_, _, rfl⟩))).elim
    · cases h
  | loopBeat ok o =>
    dsimp only at h
    split at h
    · rename_i hl
      unfold Sys.loopBeat at h
      repeat' split at h
      all_goals first
        | contradiction
        | exact (inHand_fail h hi).elim
        | (cases h; exact (inHand_loop hi hl (.inl rfl)).elim)
    · cases h
  | finish =>
    dsimp only at h
    unfold Sys.finish at h
    repeat' split at h
    all_goals first
      | contradiction
      | (cases h; exact (inHand_loop hi rfl (.inr (.inl rfl))).elim)
      | (cases h; exact same rfl (by simp))
  | _ =>
    dsimp only at h
    repeat' split at h
    all_goals first
      | contradiction
      | exact (inHand_fail h hi).elim
      | (simp only [Option.some.injEq] at h; subst h; exact same rfl (by simp))

theorem took_last (hf : Follows cfg (Sys.init n) l) {i : Nat} {m : Moment} {f : Frame} (h : l[i]? = some m) (hi : InHand m.before f) :
    ∃ k a, k < i ∧ l[k]? = some a ∧ taken a = some (some f) ∧ (l.take k).countP takes + 1 = (l.take i).countP takes := by
  induction i generalizing m with
  | zero =>
    have h0 := (follows_at hf h).1
    have h0 : Sys.init n = m.before := by simpa [Sys.run] using h0
    rw [← h0] at hi
    exact absurd rfl (inHand_select hi)
  | succ i ih =>
    obtain ⟨a, ha⟩ := at_some h (Nat.le_succ i)
    rw [follows_next hf ha h] at hi
    have hl := (List.getElem?_eq_some_iff.1 ha).1
    have hla : l[i] = a := (List.getElem?_eq_some_iff.1 ha).2
    rw [List.take_succ_eq_append_getElem hl, List.countP_append, hla]
    rcases inHand_step a (follows_at hf ha).2 hi with ⟨h1, h2⟩ | h1
    · obtain ⟨k, b, h3, h4, h5, h6⟩ := ih ha h1
      refine ⟨k, b, by omega, h4, h5, ?_⟩
      have : [a].countP takes = 0 := by simp [h2]
      omega
    · refine ⟨i, a, by omega, ha, h1, ?_⟩
      have h2 : takes a = true := by rw [taken_iff, h1]; rfl
      simp [h2]

end
end Stomp.Client
