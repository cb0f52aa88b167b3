import Verif.Proofs.Client.Panics
/-! # After `closeChannel` has run: who still waits, who comes back -/
namespace Stomp.Client
open Stomp

/-! ## What is closed stays closed -/

/-- `C` is closed and holds (or held) `l`. -/
def Frozen (i : Nat) (l : List CMsg) (s : Sys) : Prop := ∃ b, s.subs[i]? = some b ∧ b.cClosed = true ∧ b.got = l

theorem cnext_frozen {b b' : Sub} {p p' : ClosePc} (h : CNext b p b' p') (hc : b.cClosed = true) :
    b'.cClosed = true ∧ b'.got = b.got := by
  cases h <;> simp_all

theorem cfin_frozen {b b' : Sub} {p : ClosePc} (h : CFin b p b') (hc : b.cClosed = true) :
    b'.cClosed = true ∧ b'.got = b.got := by
  cases h <;> simp_all

theorem frozen_step {cfg : Cfg} {s s' : Sys} {i : Nat} {l : List CMsg} (hd : Dom s) (hf : Frozen i l s) (h : Step cfg s s') :
    Frozen i l s' := by
  obtain ⟨b, hb, hc, hg⟩ := hf
  have same : ∀ {j : Nat}, SubsBut s s' j → j ≠ i → Frozen i l s' := fun hs hj => ⟨b, (hs i (fun e => hj e.symm)).trans hb, hc, hg⟩
  cases ueff_step hd h with
  | quiet ht hs =>
    have := ext_step h
    obtain ⟨b', hb', _⟩ := this.subs i b hb
    rcases hs i b' hb' with ⟨b0, hb0, he⟩ | ⟨hl, _⟩
    · rw [hb] at hb0; cases hb0
      exact ⟨b', hb', by cases he <;> exact hc, by cases he <;> exact hg⟩
    · have := (List.getElem?_eq_some_iff.1 hb).1
      omega
  | @rl j c c' ht hb1 hb2 hs hr =>
    by_cases hj : j = i
    · subst hj
      rw [hb] at hb1; cases hb1
      refine ⟨c', hb2, ?_⟩
      cases hr with
      | put hr hc' => rw [hc] at hc'; cases hc'
      | closeNext hr hn => obtain ⟨h1, h2⟩ := cnext_frozen hn hc; exact ⟨h1, h2.trans hg⟩
      | closeFin hr hn => obtain ⟨h1, h2⟩ := cfin_frozen hn hc; exact ⟨h1, h2.trans hg⟩
      | _ => exact ⟨hc, hg⟩
    · exact same hs hj
  | @cas t j c pc ht ht' hw hb1 hb2 hs hst hpc =>
    by_cases hj : j = i
    · subst hj
      rw [hb] at hb1; cases hb1
      exact ⟨_, hb2, hc, hg⟩
    · exact same hs hj
  | @thr t j c c' pc pc' hh hh' ht ht' hw hb1 hb2 hs hst =>
    by_cases hj : j = i
    · subst hj
      rw [hb] at hb1; cases hb1
      refine ⟨c', hb2, ?_⟩
      cases hst with
      | put hc' => rw [hc] at hc'; cases hc'
      | closeNext hn => obtain ⟨h1, h2⟩ := cnext_frozen hn hc; exact ⟨h1, h2.trans hg⟩
      | closeFin hn => obtain ⟨h1, h2⟩ := cfin_frozen hn hc; exact ⟨h1, h2.trans hg⟩
      | _ => exact ⟨hc, hg⟩
    · exact same hs hj

/-! ## A missed broadcast -/

/-- `closeChannel` has run, and the call of `Unsubscribe` waits for the next broadcast, or is about to. -/
def Lost (t i : Nat) (s : Sys) : Prop :=
  ∃ b pc, s.subs[i]? = some b ∧ b.once = .done ∧ s.won t = some (i, pc, .none) ∧
    (pc = .condWait ∨ ∃ k, pc = .asleep k ∧ b.notified ≤ k)

theorem lost_rstep {s : Sys} {b b' : Sub} {w : Option (Pc × HPc)} (hk : SubOk b w) (ho : b.once = .done) (h : RStep s b b') :
    b'.once = .done ∧ b'.notified = b.notified := by
  have hat : b.rl.at? = none := by
    rcases hk.once with ⟨h1, _⟩ | ⟨_, h2⟩
    · exact h1
    · unfold OnceOk at h2
      rw [ho] at h2
      split at h2 <;> simp_all
  cases h with
  | @closeNext p p' b1 hr hn =>
    rw [hr] at hat
    cases hn <;> simp_all [RlPc.at?, ClosePc.inside]
  | @closeFin p b1 hr hn =>
    rw [hr] at hat
    cases hn <;> simp_all [RlPc.at?, ClosePc.inside]
  | _ => exact ⟨ho, rfl⟩

theorem lost_step {cfg : Cfg} {s s' : Sys} {t i : Nat} (hi : UInv s) (hl : Lost t i s) (h : Step cfg s s') : Lost t i s' := by
  obtain ⟨b, pc, hb, ho, hw, hp⟩ := hl
  have hk := hi.held t i pc .none b hw hb
  cases ueff_step hi.dom h with
  | quiet ht hs =>
    obtain ⟨b', hb', _⟩ := (ext_step h).subs i b hb
    rcases hs i b' hb' with ⟨b0, hb0, he⟩ | ⟨hl, _⟩
    · rw [hb] at hb0; cases hb0
      exact ⟨b', pc, hb', by cases he <;> exact ho, by rw [ht]; exact hw, by cases he <;> exact hp⟩
    · have := (List.getElem?_eq_some_iff.1 hb).1
      omega
  | @rl j c c' ht hb1 hb2 hs hr =>
    by_cases hj : j = i
    · subst hj
      rw [hb] at hb1; cases hb1
      obtain ⟨h1, h2⟩ := lost_rstep hk ho hr
      exact ⟨c', pc, hb2, h1, by rw [ht]; exact hw, by rw [h2]; exact hp⟩
    · exact ⟨b, pc, (hs i (fun e => hj e.symm)).trans hb, ho, by rw [ht]; exact hw, hp⟩
  | @cas u j c pc' ht ht' hww hb1 hb2 hs hst hpc =>
    have hut : t ≠ u := by intro e; subst e; rw [hw] at ht; cases ht
    by_cases hj : j = i
    · subst hj
      rw [hb] at hb1; cases hb1
      exact ⟨_, pc, hb2, ho, by rw [hww t hut]; exact hw, hp⟩
    · exact ⟨b, pc, (hs i (fun e => hj e.symm)).trans hb, ho, by rw [hww t hut]; exact hw, hp⟩
  | @thr u j c c' pc1 pc2 k1 k2 ht ht' hww hb1 hb2 hs hst =>
    by_cases hut : t = u
    · subst hut
      rw [hw] at ht; cases ht
      rw [hb] at hb1; cases hb1
      rcases hp with rfl | ⟨k, rfl, hk2⟩
      · cases hst with
        | move hp => cases hp
        | back hp => cases hp
        | lost hp => cases hp
        | sleep hl => exact ⟨_, _, hb2, ho, ht', .inr ⟨_, rfl, hk.count⟩⟩
      · cases hst with
        | move hp => cases hp
        | back hp => cases hp
        | lost hp => cases hp
        | wake hlt => omega
    · have hj : j ≠ i := by
        intro e; subst e
        exact hut (hi.one t u j _ _ _ _ hw ht)
      exact ⟨b, pc, (hs i (fun e => hj e.symm)).trans hb, ho, by rw [hww t hut]; exact hw, hp⟩

/-! ## Coming back -/

theorem step_unsub {cfg : Cfg} {s : Sys} {t : Nat} {th : Thread} {i : Nat} {o : List SubOpt} {b : Sub} (hc : s.crashed = none)
    (ht : s.threads[t]? = some th) (hcall : th.call = .unsubscribe i o) (hb : s.subs[i]? = some b)
    (hpc : (∃ r, th.pc = .subLock r) ∨ (∃ r, th.pc = .check r) ∨ (∃ k, th.pc = .asleep k) ∨ th.pc = .relock ∨ th.pc = .select) :
    s.step cfg (.thread t) = s.unsub cfg t th i b := by
  unfold Sys.step
  rw [hc]
  simp only [Option.isSome_none, Bool.false_eq_true, if_false]
  unfold Sys.thread
  rw [ht]
  dsimp only
  rcases hpc with ⟨r, e⟩ | ⟨r, e⟩ | ⟨k, e⟩ | e | e <;> rw [e] <;> dsimp only <;> rw [hcall] <;> dsimp only <;> rw [hb]

/-- `t` can go on by itself and will have returned `r`. -/
def Comes (cfg : Cfg) (s : Sys) (t : Nat) (call : Call) (r : Res) : Prop :=
  ∃ es s', (∀ e ∈ es, e = Ev.thread t ∨ e = Ev.helper t) ∧ s.run cfg es = some s' ∧
    ∃ th, s'.threads[t]? = some th ∧ th.call = call ∧ th.pc = .ret r

theorem Comes.cons {cfg : Cfg} {s s1 : Sys} {t : Nat} {call : Call} {r : Res} {e : Ev} (he : e = Ev.thread t ∨ e = Ev.helper t)
    (h : s.step cfg e = some s1) (hc : Comes cfg s1 t call r) : Comes cfg s t call r := by
  obtain ⟨es, s', h1, h2, h3⟩ := hc
  refine ⟨e :: es, s', ?_, ?_, h3⟩
  · intro x hx
    rcases List.mem_cons.1 hx with rfl | hx
    · exact he
    · exact h1 x hx
  · simp only [Sys.run, h, Option.bind_some]
    exact h2

theorem get_goto {s : Sys} {t : Nat} {th : Thread} {g : Thread → Thread} (ht : s.threads[t]? = some th) :
    (s.threads.modify t g)[t]? = some (g th) := by
  rw [List.getElem?_modify, ht]; simp

theorem comes_check {cfg : Cfg} {s : Sys} {t : Nat} {th : Thread} {i : Nat} {o : List SubOpt} {b : Sub} {r : Res}
    (hc : s.crashed = none) (ht : s.threads[t]? = some th) (hcall : th.call = .unsubscribe i o) (hb : s.subs[i]? = some b)
    (hs : b.state = .closed) (hl : b.locked = true) (hpc : th.pc = .check r) : Comes cfg s t th.call r := by
  refine ⟨[.thread t], (s.setSub i { b with locked := false }).ret t r, by simp, ?_, { th with pc := .ret r }, ?_, rfl, rfl⟩
  · simp only [Sys.run, step_unsub hc ht hcall hb (.inr (.inl ⟨r, hpc⟩)), Sys.unsub, hpc, hs, hl, if_true, Option.bind_some]
  · exact get_goto (g := fun th => { th with pc := .ret r }) ht

theorem comes_subLock {cfg : Cfg} {s : Sys} {t : Nat} {th : Thread} {i : Nat} {o : List SubOpt} {b : Sub} {r : Res}
    (hc : s.crashed = none) (ht : s.threads[t]? = some th) (hcall : th.call = .unsubscribe i o) (hb : s.subs[i]? = some b)
    (hs : b.state = .closed) (hl : b.locked = false) (hpc : th.pc = .subLock r) : Comes cfg s t th.call r := by
  refine .cons (s1 := (s.setSub i { b with locked := true }).goto t (.check r)) (.inl rfl) ?_ ?_
  · simp only [step_unsub hc ht hcall hb (.inl ⟨r, hpc⟩), Sys.unsub, hpc, hl, Bool.false_eq_true, if_false]
  · exact comes_check (th := { th with pc := .check r }) hc (get_goto (g := fun th => { th with pc := .check r }) ht) hcall
      (set_get (b' := { b with locked := true }) hb) hs rfl rfl

theorem comes_relock {cfg : Cfg} {s : Sys} {t : Nat} {th : Thread} {i : Nat} {o : List SubOpt} {b : Sub}
    (hc : s.crashed = none) (ht : s.threads[t]? = some th) (hcall : th.call = .unsubscribe i o) (hb : s.subs[i]? = some b)
    (hs : b.state = .closed) (hl : b.locked = false) (hpc : th.pc = .relock) : Comes cfg s t th.call .ok := by
  refine .cons (s1 := (s.setSub i { b with locked := true }).goto t (.check .ok)) (.inl rfl) ?_ ?_
  · simp only [step_unsub hc ht hcall hb (.inr (.inr (.inr (.inl hpc)))), Sys.unsub, hpc, hl, Bool.false_eq_true, if_false]
  · exact comes_check (th := { th with pc := .check .ok }) hc (get_goto (g := fun th => { th with pc := .check .ok }) ht) hcall
      (set_get (b' := { b with locked := true }) hb) hs rfl rfl

theorem comes_asleep {cfg : Cfg} {s : Sys} {t : Nat} {th : Thread} {i : Nat} {o : List SubOpt} {b : Sub} {k : Nat}
    (hc : s.crashed = none) (ht : s.threads[t]? = some th) (hcall : th.call = .unsubscribe i o) (hb : s.subs[i]? = some b)
    (hs : b.state = .closed) (hl : b.locked = false) (hpc : th.pc = .asleep k) (hk : k < b.notified) : Comes cfg s t th.call .ok := by
  refine .cons (s1 := s.goto t .relock) (.inl rfl) ?_ ?_
  · simp only [step_unsub hc ht hcall hb (.inr (.inr (.inl ⟨k, hpc⟩))), Sys.unsub, hpc, hk, if_true]
  · exact comes_relock (th := { th with pc := .relock }) hc (get_goto (g := fun th => { th with pc := .relock }) ht) hcall hb hs hl rfl

theorem comes_select {cfg : Cfg} {s : Sys} {t : Nat} {th : Thread} {i : Nat} {o : List SubOpt} {b : Sub}
    (hc : s.crashed = none) (ht : s.threads[t]? = some th) (hcall : th.call = .unsubscribe i o) (hb : s.subs[i]? = some b)
    (hs : b.state = .closed) (hl : b.locked = true) (hpc : th.pc = .select) (hh : th.helper = .done) : Comes cfg s t th.call .ok := by
  refine .cons (s1 := s.goto t (.check .ok)) (.inl rfl) ?_ ?_
  · simp only [step_unsub hc ht hcall hb (.inr (.inr (.inr (.inr hpc)))), Sys.unsub, hpc, hh, if_true]
  · exact comes_check (th := { th with pc := .check .ok }) hc (get_goto (g := fun th => { th with pc := .check .ok }) ht) hcall hb hs hl rfl

theorem step_helper {cfg : Cfg} {s : Sys} {t : Nat} (hc : s.crashed = none) : s.step cfg (.helper t) = s.helper t := by
  unfold Sys.step
  rw [hc]
  simp

theorem comes_helperRelock {cfg : Cfg} {s : Sys} {t : Nat} {th : Thread} {i : Nat} {o : List SubOpt} {b : Sub}
    (hc : s.crashed = none) (ht : s.threads[t]? = some th) (hcall : th.call = .unsubscribe i o) (hb : s.subs[i]? = some b)
    (hs : b.state = .closed) (hl : b.locked = false) (hpc : th.pc = .select) (hh : th.helper = .relock) : Comes cfg s t th.call .ok := by
  refine .cons (s1 := (s.setSub i { b with locked := true }).setHelper t .done) (.inr rfl) ?_ ?_
  · simp only [step_helper hc, Sys.helper, ht, hcall, hb, hh, hl, Bool.false_eq_true, if_false]
  · exact comes_select (th := { th with helper := .done }) hc (get_goto (g := fun th => { th with helper := .done }) ht) hcall
      (set_get (b' := { b with locked := true }) hb) hs rfl hpc rfl

theorem comes_helperAsleep {cfg : Cfg} {s : Sys} {t : Nat} {th : Thread} {i : Nat} {o : List SubOpt} {b : Sub} {k : Nat}
    (hc : s.crashed = none) (ht : s.threads[t]? = some th) (hcall : th.call = .unsubscribe i o) (hb : s.subs[i]? = some b)
    (hs : b.state = .closed) (hl : b.locked = false) (hpc : th.pc = .select) (hh : th.helper = .asleep k) (hk : k < b.notified) :
    Comes cfg s t th.call .ok := by
  refine .cons (s1 := s.setHelper t .relock) (.inr rfl) ?_ ?_
  · simp only [step_helper hc, Sys.helper, ht, hcall, hb, hh, hk, if_true]
  · exact comes_helperRelock (th := { th with helper := .relock }) hc (get_goto (g := fun th => { th with helper := .relock }) ht) hcall
      hb hs hl hpc rfl

end Stomp.Client
