import Verif.Proofs.Client.Unsub
/-!
# `closeOnce`, `closeMutex` and the channel `C` of a subscription

An invariant over one subscription, its `readLoop` and the one call of `Unsubscribe` beyond the
compare-and-swap.
-/
namespace Stomp.Client
open Stomp

/-- Inside the function run by `closeOnce.Do`. -/
def ClosePc.inside : ClosePc → Bool
  | .enter _ => false
  | _ => true

/-- Position of `readLoop` inside `closeOnce.Do`. -/
def RlPc.at? : RlPc → Option ClosePc
  | .closing p => if p.inside then some p else none
  | _ => none

/-- Position of the call of `Unsubscribe` inside `closeOnce.Do`. -/
def wonAt : Option (Pc × HPc) → Option ClosePc
  | some (.closing p, _) => if p.inside then some p else none
  | _ => none

/-- At or past the `select` of `waitWithTimeout`, until it is woken. -/
def Pc.late : Pc → Bool
  | .select | .timedOut | .putTimeout | .ret .unsubTimeout => true
  | _ => false

/-- Whether `closeMutex` is locked. -/
def lockedOf : Option (Pc × HPc) → Bool
  | some (.check _, _) | some (.condWait, _) => true
  | some (pc, h) => pc.late && (h = .start || h = .done)
  | none => false

theorem lockedOf_late {pc : Pc} {h : HPc} (hl : pc.late = true) : lockedOf (some (pc, h)) = (h = .start || h = .done) := by
  have : lockedOf (some (pc, h)) = (pc.late && (h = .start || h = .done)) := by
    cases pc <;> first | rfl | cases hl
  rw [this, hl]; rfl

/-- The state of `closeOnce` and of `C`, given who is inside `closeOnce.Do`. -/
def OnceOk (b : Sub) (p : Option ClosePc) : Prop :=
  match b.once, p with
  | .idle, none => b.cClosed = false ∧ b.state ≠ .closed
  | .running, some .close => b.cClosed = false ∧ b.state = .closed
  | .running, some .broadcast => b.cClosed = true ∧ b.state = .closed
  | .running, some _ => b.cClosed = false ∧ b.state ≠ .closed
  | .done, none => b.cClosed = true ∧ b.state = .closed
  | _, _ => False

structure SubOk (b : Sub) (w : Option (Pc × HPc)) : Prop where
  act : w ≠ none → b.state ≠ .active
  lock : b.locked = lockedOf w
  helper : ∀ pc h, w = some (pc, h) → h = .none ∨ h = .done ∨ pc.late = true
  started : ∀ pc h, w = some (pc, h) → pc.late = true → h ≠ .none
  res : ∀ pc h, w = some (pc, h) → pc ≠ .subLock .unsubTimeout ∧ pc ≠ .check .unsubTimeout
  once : (b.rl.at? = none ∧ OnceOk b (wonAt w)) ∨ (wonAt w = none ∧ OnceOk b b.rl.at?)
  /-- `C` was closed by `readLoop`, or by the call of `Unsubscribe`. -/
  closer : b.cClosed = true → b.rl = .closing .broadcast ∨ b.rl = .done ∨
    ∃ h, w = some (.closing .broadcast, h) ∨ w = some (.ret .closedUnexpectedly, h)
  count : b.notified ≤ b.tickets
  asleep : ∀ pc h k, w = some (pc, h) → pc = .asleep k ∨ h = .asleep k → k < b.tickets

theorem SubOk.new (id : Bytes) (rt : Bool) (n : Nat) : SubOk (Sub.new id rt n) none where
  act := by simp
  lock := rfl
  helper := by simp
  started := by simp
  res := by simp
  once := by simp [Sub.new, RlPc.at?, wonAt, OnceOk]
  closer := by simp [Sub.new]
  count := by simp [Sub.new]
  asleep := by simp

theorem SubOk.eqv {b b' : Sub} {w : Option (Pc × HPc)} (h : SubOk b w) (he : Eqv b b') : SubOk b' w := by
  cases he with
  | same => exact h
  | returned => exact ⟨h.act, h.lock, h.helper, h.started, h.res, h.once, h.closer, h.count, h.asleep⟩
  | take => exact ⟨h.act, h.lock, h.helper, h.started, h.res, h.once, h.closer, h.count, h.asleep⟩

theorem rlRecv_at (f : Frame) : (Sys.rlRecv f).at? = none := by
  unfold Sys.rlRecv
  repeat' split
  all_goals rfl

/-- `closeChannel` moves, whoever runs it. -/
theorem onceOk_next {b b' : Sub} {p p' : ClosePc} (h : CNext b p b' p')
    (ho : OnceOk b (if p.inside then some p else none)) : OnceOk b' (some p') ∧ p'.inside = true := by
  cases hb : b.once <;> cases h <;> simp_all [OnceOk, ClosePc.inside]

theorem onceOk_fin {b b' : Sub} {p : ClosePc} (h : CFin b p b')
    (ho : OnceOk b (if p.inside then some p else none)) : OnceOk b' none := by
  cases hb : b.once <;> cases h <;> simp_all [OnceOk, ClosePc.inside]

theorem onceOk_irrel {b b' : Sub} {p : Option ClosePc} (ho : OnceOk b p) (h1 : b'.once = b.once) (h2 : b'.cClosed = b.cClosed)
    (h3 : b'.state = b.state) : OnceOk b' p := by
  unfold OnceOk at *
  rw [h1, h2, h3]
  exact ho

/-- If `closeChannel` can go on for one, nobody else is inside. -/
theorem onceOk_alone {b : Sub} {p p' : ClosePc} {q : Option ClosePc} {b' : Sub} (h : CNext b p b' p' ∨ CFin b p b')
    (ho : (q = none ∧ OnceOk b (if p.inside then some p else none)) ∨ ((if p.inside then some p else none) = none ∧ OnceOk b q)) :
    q = none ∧ OnceOk b (if p.inside then some p else none) := by
  rcases ho with ho | ⟨h1, h2⟩
  · exact ho
  · cases p with
    | enter m =>
      have : b.once = .idle ∨ b.once = .done := by
        rcases h with h | h
        · left; cases h <;> assumption
        · right; cases h; assumption
      cases q with
      | none => exact ⟨rfl, h2⟩
      | some q => rcases this with e | e <;> simp [OnceOk, e] at h2
    | _ => simp [ClosePc.inside] at h1

theorem onceOk_broadcast {b : Sub} {p : ClosePc} (ho : OnceOk b (some p)) (hc : b.cClosed = true) : p = .broadcast := by
  unfold OnceOk at ho
  split at ho <;> simp_all

theorem SubOk.rl {s : Sys} {b b' : Sub} {w : Option (Pc × HPc)} (h : SubOk b w) (hr : RStep s b b') : SubOk b' w := by
  have quiet : ∀ {x : RlPc}, (b.rl = .recv ∨ (∃ m, b.rl = .put m) ∨ ∃ m, b.rl = .check m) → x.at? = none →
      SubOk { b with rl := x } w := by
    intro x hb hx
    have hb1 : b.rl.at? = none := by rcases hb with e | ⟨_, e⟩ | ⟨_, e⟩ <;> rw [e] <;> rfl
    have ho : OnceOk b (wonAt w) := by
      rcases h.once with ⟨_, h⟩ | ⟨h1, h2⟩
      · exact h
      · rw [h1]; rw [hb1] at h2; exact h2
    refine ⟨h.act, h.lock, h.helper, h.started, h.res, .inl ⟨hx, ho⟩, fun hc => ?_, h.count, h.asleep⟩
    rcases h.closer hc with e | e | e
    · rcases hb with e' | ⟨_, e'⟩ | ⟨_, e'⟩ <;> rw [e'] at e <;> cases e
    · rcases hb with e' | ⟨_, e'⟩ | ⟨_, e'⟩ <;> rw [e'] at e <;> cases e
    · exact .inr (.inr e)
  have alone : ∀ {p p' : ClosePc} {b1 : Sub}, b.rl = .closing p → (CNext b p b1 p' ∨ CFin b p b1) →
      wonAt w = none ∧ OnceOk b (if p.inside then some p else none) := by
    intro p p' b1 hp hn
    apply onceOk_alone hn
    have := h.once
    rw [hp] at this
    rcases this with ⟨a, b⟩ | ⟨a, b⟩
    · exact .inr ⟨a, b⟩
    · exact .inl ⟨a, b⟩
  cases hr with
  | recv ha hr => exact quiet (.inl hr) (rlRecv_at _)
  | eof hr hc => exact quiet (.inl hr) rfl
  | put hr hc hl =>
    have := quiet (x := .recv) (.inr (.inl ⟨_, hr⟩)) rfl
    exact ⟨this.act, this.lock, this.helper, this.started, this.res, this.once, this.closer, this.count, this.asleep⟩
  | checkClosed hr hs => exact quiet (.inr (.inr ⟨_, hr⟩)) rfl
  | checkOpen hr hs => exact quiet (.inr (.inr ⟨_, hr⟩)) rfl
  | @closeNext p p' b1 hr hn =>
    obtain ⟨hw, ho⟩ := alone hr (.inl hn)
    obtain ⟨h1, h2⟩ := onceOk_next hn ho
    have hat : (RlPc.closing p').at? = some p' := by simp [RlPc.at?, h2]
    refine ⟨?_, ?_, h.helper, h.started, h.res, .inr ⟨hw, ?_⟩, ?_, ?_, ?_⟩
    · intro hn'
      have := h.act hn'
      cases hn <;> first | exact this | simp
    · have := h.lock
      cases hn <;> exact this
    · show OnceOk _ (RlPc.closing p').at?
      rw [hat]
      exact onceOk_irrel h1 rfl rfl rfl
    · intro hc
      left
      exact congrArg RlPc.closing (onceOk_broadcast h1 hc)
    · cases hn <;> exact h.count
    · cases hn <;> exact h.asleep
  | @closeFin p b1 hr hn =>
    obtain ⟨hw, ho⟩ := alone (p' := .store) hr (.inr hn)
    have h1 := onceOk_fin hn ho
    refine ⟨?_, ?_, h.helper, h.started, h.res, .inr ⟨hw, onceOk_irrel h1 rfl rfl rfl⟩, fun _ => .inr (.inl rfl), ?_, ?_⟩
    · cases hn <;> exact h.act
    · cases hn <;> exact h.lock
    · cases hn
      · exact h.count
      · exact Nat.le_refl _
    · cases hn <;> exact h.asleep

theorem SubOk.cas {b : Sub} {pc : Pc} (h : SubOk b none) (hst : b.state = .active) (hpc : (∃ f, pc = .lock f) ∨ pc = .ret .optionError) :
    SubOk { b with state := .closing } (some (pc, .none)) := by
  have hw : wonAt (some (pc, .none)) = none := by rcases hpc with ⟨f, e⟩ | e <;> subst e <;> rfl
  have ho : OnceOk b b.rl.at? := by
    rcases h.once with ⟨h1, h2⟩ | ⟨h1, h2⟩
    · rw [h1]; exact h2
    · exact h2
  refine ⟨by simp, ?_, ?_, ?_, ?_, .inr ⟨hw, ?_⟩, ?_, h.count, ?_⟩
  · rw [show ({ b with state := .closing } : Sub).locked = b.locked from rfl, h.lock]
    rcases hpc with ⟨f, e⟩ | e <;> subst e <;> rfl
  · intro pc' h' e; cases e; exact .inl rfl
  · intro pc' h' e hl; cases e; rcases hpc with ⟨f, e⟩ | e <;> subst e <;> cases hl
  · intro pc' h' e; cases e; rcases hpc with ⟨f, e⟩ | e <;> subst e <;> simp
  · show OnceOk { b with state := .closing } b.rl.at?
    unfold OnceOk at *
    split at ho <;> simp_all
  · intro hc
    rcases h.closer hc with e | e | ⟨_, e | e⟩
    · exact .inl e
    · exact .inr (.inl e)
    · cases e
    · cases e
  · intro pc' h' k e hk
    cases e
    rcases hpc with ⟨f, e⟩ | e <;> subst e <;> simp at hk

theorem SubOk.thr {cfg : Cfg} {b b' : Sub} {pc pc' : Pc} {h h' : HPc} (hk : SubOk b (some (pc, h)))
    (ht : TStep cfg b pc h b' pc' h') : SubOk b' (some (pc', h')) := by
  -- the position inside `closeChannel` does not matter before and after
  have quiet : ∀ {b' : Sub} {pc' : Pc} {h' : HPc}, wonAt (some (pc, h)) = none → wonAt (some (pc', h')) = none →
      b'.once = b.once → b'.cClosed = b.cClosed → b'.state = b.state → b'.rl = b.rl →
      ((b'.rl.at? = none ∧ OnceOk b' (wonAt (some (pc', h')))) ∨ (wonAt (some (pc', h')) = none ∧ OnceOk b' b'.rl.at?)) := by
    intro b' pc' h' h1 h2 h3 h4 h5 h6
    right
    refine ⟨h2, ?_⟩
    rw [h6]
    refine onceOk_irrel ?_ h3 h4 h5
    rcases hk.once with ⟨a, b⟩ | ⟨a, b⟩
    · rw [a]; rw [h1] at b; exact b
    · exact b
  have closer : ∀ {b' : Sub} {pc' : Pc} {h' : HPc}, (∀ p, pc ≠ .closing p) → pc ≠ .ret .closedUnexpectedly ∨ pc' = pc →
      b'.cClosed = b.cClosed → b'.rl = b.rl →
      (b'.cClosed = true → b'.rl = .closing .broadcast ∨ b'.rl = .done ∨
        ∃ h, some (pc', h') = some (Pc.closing .broadcast, h) ∨ some (pc', h') = some (Pc.ret .closedUnexpectedly, h)) := by
    intro b' pc' h' h1 h2 h3 h4 hc
    rw [h3] at hc
    rw [h4]
    rcases hk.closer hc with e | e | ⟨x, e | e⟩
    · exact .inl e
    · exact .inr (.inl e)
    · cases e; exact absurd rfl (h1 _)
    · cases e
      rcases h2 with h2 | h2
      · exact absurd rfl h2
      · exact .inr (.inr ⟨_, .inr (by rw [h2])⟩)
  have hres := hk.res pc h rfl
  have hhelp := hk.helper pc h rfl
  have hstart := hk.started pc h rfl
  have hlock := hk.lock
  have hact := hk.act (by simp)
  have hcount := hk.count
  have hasl := hk.asleep pc h
  have mk : ∀ {b' : Sub} {pc' : Pc} {h' : HPc}, wonAt (some (pc, h)) = none → wonAt (some (pc', h')) = none →
      b'.once = b.once → b'.cClosed = b.cClosed → b'.state = b.state → b'.rl = b.rl →
      (∀ p, pc ≠ .closing p) → pc ≠ .ret .closedUnexpectedly ∨ pc' = pc → b'.locked = lockedOf (some (pc', h')) →
      (h' = .none ∨ h' = .done ∨ pc'.late = true) → (pc'.late = true → h' ≠ .none) → (pc' ≠ .subLock .unsubTimeout ∧ pc' ≠ .check .unsubTimeout) →
      b'.notified ≤ b'.tickets → (∀ k, pc' = .asleep k ∨ h' = .asleep k → k < b'.tickets) → SubOk b' (some (pc', h')) := by
    intro b' pc' h' h1 h2 h3 h4 h5 h6 h7 h8 h9 h10 h10' h11 h12 h13
    refine ⟨fun _ => h5 ▸ hact, h9, ?_, ?_, ?_, quiet h1 h2 h3 h4 h5 h6, closer h7 h8 h4 h6, h12, ?_⟩
    · intro a b e; cases e; exact h10
    · intro a b e; cases e; exact h10'
    · intro a b e; cases e; exact h11
    · intro a b k e; cases e; exact h13 k
  replace hasl : ∀ k, pc = .asleep k ∨ h = .asleep k → k < b.tickets := fun k => hasl k rfl
  have alone : ∀ {p p' : ClosePc} {b1 : Sub}, pc = .closing p → (CNext b p b1 p' ∨ CFin b p b1) →
      b.rl.at? = none ∧ OnceOk b (if p.inside then some p else none) := by
    intro p p' b1 hp hn
    apply onceOk_alone hn
    have := hk.once
    rw [hp] at this
    exact this
  cases ht with
  | move hp hp' =>
    cases pc <;> cases hp <;> cases pc' <;> cases hp' <;>
    exact mk rfl rfl rfl rfl rfl rfl (by simp) (.inl (by simp)) (by simpa [lockedOf, Pc.late] using hlock) (by simpa [Pc.late] using hhelp) (by simp [Pc.late])
      (by simp) hcount (by simpa using hasl)
  | back hp hr hr' =>
    cases pc <;> cases hp <;>
    exact mk rfl rfl rfl rfl rfl rfl (by simp) (.inl (by simp)) (by simpa [lockedOf, Pc.late] using hlock) (by simpa [Pc.late] using hhelp) (by simp [Pc.late])
      (by simp [hr']) hcount (by simpa using hasl)
  | lost hp =>
    cases pc <;> cases hp <;>
    exact mk rfl rfl rfl rfl rfl rfl (by simp) (.inl (by simp)) (by simpa [lockedOf, Pc.late] using hlock) (by simpa [Pc.late] using hhelp) (by simp [Pc.late])
      (by simp) hcount (by simpa using hasl)
  | @closeNext p p' _ _ hc =>
    obtain ⟨hr, ho⟩ := alone rfl (.inl hc)
    obtain ⟨h1, h2⟩ := onceOk_next hc ho
    have hw : wonAt (some (.closing p', h)) = some p' := by simp [wonAt, h2]
    have hrl : b'.rl = b.rl := by cases hc <;> rfl
    refine ⟨fun _ => ?_, ?_, ?_, ?_, ?_, .inl ⟨hrl ▸ hr, by rw [hw]; exact h1⟩, fun hcc => ?_, ?_, ?_⟩
    · cases hc <;> first | exact hact | simp
    · have : b'.locked = b.locked := by cases hc <;> rfl
      rw [this, hlock]; rfl
    · intro a b e; cases e; simpa [Pc.late] using hhelp
    · intro a b e hl; cases e; cases hl
    · intro a b e; cases e; simp
    · rw [onceOk_broadcast h1 hcc]
      exact .inr (.inr ⟨_, .inl rfl⟩)
    · cases hc <;> exact hcount
    · intro a c k e
      cases e
      have : b'.tickets = b.tickets := by cases hc <;> rfl
      rw [this]
      simpa using hasl k
  | @closeFin p _ _ hc =>
    obtain ⟨hr, ho⟩ := alone (p' := .store) rfl (.inr hc)
    have h1 := onceOk_fin hc ho
    have hrl : b'.rl = b.rl := by cases hc <;> rfl
    refine ⟨fun _ => ?_, ?_, ?_, ?_, ?_, .inl ⟨hrl ▸ hr, h1⟩, fun _ => .inr (.inr ⟨_, .inr rfl⟩), ?_, ?_⟩
    · cases hc <;> exact hact
    · have : b'.locked = b.locked := by cases hc <;> rfl
      rw [this, hlock]; rfl
    · intro a b e; cases e; simpa [Pc.late] using hhelp
    · intro a b e hl; cases e; cases hl
    · intro a b e; cases e; simp
    · cases hc
      · exact hcount
      · exact Nat.le_refl _
    · intro a c k e
      cases e
      have : b'.tickets = b.tickets := by cases hc <;> rfl
      rw [this]
      simpa using hasl k
  | lock hl =>
    exact mk rfl rfl rfl rfl rfl rfl (by simp) (.inl (by simp)) rfl (by simpa [Pc.late] using hhelp) (by simp [Pc.late])
      (by simpa using hres) hcount (by simpa using hasl)
  | @done r _ hs hl =>
    have hr : r ≠ .unsubTimeout := by simpa using hres
    have : Pc.late (.ret r) = false := by cases r <;> first | rfl | exact absurd rfl hr
    have hhelp' : h = .none ∨ h = .done := by simpa [Pc.late] using hhelp
    exact mk rfl rfl rfl rfl rfl rfl (by simp) (.inl (by simp)) (by simp [lockedOf, this]) (by rcases hhelp' with e | e <;> simp [e])
      (by rw [this]; simp)
      (by simp) hcount (by simpa using hasl)
  | timed hs hcfg =>
    exact mk rfl rfl rfl rfl rfl rfl (by simp) (.inl (by simp)) (by rw [hlock]; simp [lockedOf, Pc.late]) (by simp [Pc.late])
      (fun _ => by simp)
      (by simp) hcount (by simp)
  | wait hs hcfg =>
    exact mk rfl rfl rfl rfl rfl rfl (by simp) (.inl (by simp)) (by rw [hlock]; simp [lockedOf, Pc.late]) (by simpa [Pc.late] using hhelp) (by simp [Pc.late])
      (by simp) hcount (by simpa using hasl)
  | sleep hl =>
    refine mk rfl rfl rfl rfl rfl rfl (by simp) (.inl (by simp)) (by simp [lockedOf, Pc.late]) (by simpa [Pc.late] using hhelp) (by simp [Pc.late])
      (by simp) (Nat.le_succ_of_le hcount) ?_
    intro k hk'
    rcases hk' with e | e
    · cases e; exact Nat.lt_succ_self _
    · exact Nat.lt_succ_of_lt (hasl k (.inr e))
  | wake hk' =>
    exact mk rfl rfl rfl rfl rfl rfl (by simp) (.inl (by simp)) (by rw [hlock]; simp [lockedOf, Pc.late]) (by simpa [Pc.late] using hhelp) (by simp [Pc.late])
      (by simp) hcount (fun k e => hasl k (.inr (e.resolve_left (by simp))))
  | relock hl =>
    exact mk rfl rfl rfl rfl rfl rfl (by simp) (.inl (by simp)) rfl (by simpa [Pc.late] using hhelp) (by simp [Pc.late])
      (by simp) hcount (by simpa using hasl)
  | selected =>
    exact mk rfl rfl rfl rfl rfl rfl (by simp) (.inl (by simp)) (by rw [hlock]; simp [lockedOf, Pc.late]) (by simp)
      (by simp)
      (by simp) hcount (by simp)
  | timeout hcfg =>
    exact mk rfl rfl rfl rfl rfl rfl (by simp) (.inl (by simp)) (by rw [hlock]; simp [lockedOf, Pc.late]) (by simp [Pc.late])
      (fun _ => hstart rfl)
      (by simp) hcount (by simpa using hasl)
  | timedClosed hs =>
    exact mk rfl rfl rfl rfl rfl rfl (by simp) (.inl (by simp)) (by rw [hlock]; simp [lockedOf, Pc.late]) (by simp [Pc.late])
      (fun _ => hstart rfl)
      (by simp) hcount (by simpa using hasl)
  | timedOpen hs =>
    exact mk rfl rfl rfl rfl rfl rfl (by simp) (.inl (by simp)) (by rw [hlock]; simp [lockedOf, Pc.late]) (by simp [Pc.late])
      (fun _ => hstart rfl)
      (by simp) hcount (by simpa using hasl)
  | put hc hl =>
    exact mk rfl rfl rfl rfl rfl rfl (by simp) (.inl (by simp)) (hlock.trans (by simp [lockedOf, Pc.late])) (by simp [Pc.late])
      (fun _ => hstart rfl)
      (by simp) hcount (by simpa using hasl)
  | hSleep hl =>
    have hl' : pc.late = true := by simpa using hhelp
    refine mk ?_ ?_ rfl rfl rfl rfl ?_ (.inr rfl) ?_ (.inr (.inr hl')) (by simp) hres (Nat.le_succ_of_le hcount) ?_
    · cases pc <;> first | rfl | cases hl'
    · cases pc <;> first | rfl | cases hl'
    · intro p e; subst e; cases hl'
    · rw [lockedOf_late hl']; rfl
    · intro k hk'
      rcases hk' with e | e
      · exact Nat.lt_succ_of_lt (hasl k (.inl e))
      · cases e; exact Nat.lt_succ_self _
  | hWake hk' =>
    have hl' : pc.late = true := by simpa using hhelp
    refine mk ?_ ?_ rfl rfl rfl rfl ?_ (.inr rfl) ?_ (.inr (.inr hl')) (by simp) hres hcount (fun k e => hasl k (.inl (e.resolve_right (by simp))))
    · cases pc <;> first | rfl | cases hl'
    · cases pc <;> first | rfl | cases hl'
    · intro p e; subst e; cases hl'
    · rw [hlock, lockedOf_late hl', lockedOf_late hl']; rfl
  | hRelock hl =>
    have hl' : pc.late = true := by simpa using hhelp
    refine mk ?_ ?_ rfl rfl rfl rfl ?_ (.inr rfl) ?_ (.inr (.inl rfl)) (by simp) hres hcount (fun k e => hasl k (.inl (e.resolve_right (by simp))))
    · cases pc <;> first | rfl | cases hl'
    · cases pc <;> first | rfl | cases hl'
    · intro p e; subst e; cases hl'
    · rw [lockedOf_late hl']; rfl

/-! ## The invariant of the system -/

structure UInv (s : Sys) : Prop where
  dom : Dom s
  one : ∀ (t u i : Nat) (p q : Pc) (h k : HPc), s.won t = some (i, p, h) → s.won u = some (i, q, k) → t = u
  free : ∀ (i : Nat) (b : Sub), s.subs[i]? = some b → (∀ t p h, s.won t ≠ some (i, p, h)) → SubOk b none
  held : ∀ (t i : Nat) (p : Pc) (h : HPc) (b : Sub), s.won t = some (i, p, h) → s.subs[i]? = some b → SubOk b (some (p, h))

theorem uinv_init (n : Nat) : UInv (Sys.init n) where
  dom := by intro t th ht; simp [Sys.init] at ht
  one := by intro t u i p q h k ht; simp [Sys.won, Sys.init] at ht
  free := by intro i b hb; simp [Sys.init] at hb
  held := by intro t i p h b ht; simp [Sys.won, Sys.init] at ht

theorem won_sub {s : Sys} (hd : Dom s) {t i : Nat} {p : Pc} {h : HPc} (hw : s.won t = some (i, p, h)) : ∃ b, s.subs[i]? = some b := by
  unfold Sys.won at hw
  cases ht : s.threads[t]? with
  | none => rw [ht] at hw; cases hw
  | some th =>
    rw [ht] at hw
    simp only [Option.bind_some, Thread.won] at hw
    split at hw
    · rename_i j o hc
      split at hw
      · cases hw
      · cases hw; exact (hd t th ht).sub i o hc
    · cases hw

theorem uinv_step {cfg : Cfg} {s s' : Sys} (hi : UInv s) (h : Step cfg s s') : UInv s' := by
  have hd' := dom_step hi.dom h
  cases ueff_step hi.dom h with
  | quiet ht hs =>
    refine ⟨hd', fun t u i p q h k h1 h2 => hi.one t u i p q h k (ht t ▸ h1) (ht u ▸ h2), ?_, ?_⟩
    · intro i b' hb hno
      rcases hs i b' hb with ⟨b, hb0, he⟩ | ⟨_, id, rt, n, _, rfl⟩
      · exact (hi.free i b hb0 (fun t p h => ht t ▸ hno t p h)).eqv he
      · exact .new id rt n
    · intro t i p h b' hw hb
      rw [ht] at hw
      rcases hs i b' hb with ⟨b, hb0, he⟩ | ⟨hl, _⟩
      · exact (hi.held t i p h b hw hb0).eqv he
      · obtain ⟨b, hb0⟩ := won_sub hi.dom hw
        have := (List.getElem?_eq_some_iff.1 hb0).1
        omega
  | @rl i b b' ht hb hb' hs hr =>
    refine ⟨hd', fun t u i p q h k h1 h2 => hi.one t u i p q h k (ht t ▸ h1) (ht u ▸ h2), ?_, ?_⟩
    · intro j c hc hno
      have hno' : ∀ t p h, s.won t ≠ some (j, p, h) := fun t p h => ht t ▸ hno t p h
      by_cases hj : j = i
      · subst hj
        rw [hb'] at hc; cases hc
        exact (hi.free j b hb hno').rl hr
      · exact hi.free j c (hs j hj ▸ hc) hno'
    · intro t j p h c hw hc
      rw [ht] at hw
      by_cases hj : j = i
      · subst hj
        rw [hb'] at hc; cases hc
        exact (hi.held t j p h b hw hb).rl hr
      · exact hi.held t j p h c hw (hs j hj ▸ hc)
  | @cas t i b pc ht ht' hw hb hb' hs hst hpc =>
    have nobody : ∀ u p h, s.won u ≠ some (i, p, h) := by
      intro u p h hu
      exact (hi.held u i p h b hu hb).act (by simp) hst
    refine ⟨hd', ?_, ?_, ?_⟩
    · intro u v j p q h k h1 h2
      by_cases hu : u = t
      · by_cases hv : v = t
        · rw [hu, hv]
        · subst hu
          rw [ht'] at h1; cases h1
          rw [hw v hv] at h2
          exact absurd h2 (nobody v _ _)
      · by_cases hv : v = t
        · subst hv
          rw [ht'] at h2; cases h2
          rw [hw u hu] at h1
          exact absurd h1 (nobody u _ _)
        · exact hi.one u v j p q h k (hw u hu ▸ h1) (hw v hv ▸ h2)
    · intro j c hc hno
      have hj : j ≠ i := by intro e; subst e; exact hno t _ _ ht'
      refine hi.free j c (hs j hj ▸ hc) ?_
      intro u p h hu
      by_cases hut : u = t
      · subst hut; rw [ht] at hu; cases hu
      · exact hno u p h (hw u hut ▸ hu)
    · intro u j p h c hu hc
      by_cases hut : u = t
      · subst hut
        rw [ht'] at hu; cases hu
        rw [hb'] at hc; cases hc
        exact (hi.free i b hb nobody).cas hst hpc
      · rw [hw u hut] at hu
        have hj : j ≠ i := by intro e; subst e; exact nobody u p h hu
        exact hi.held u j p h c hu (hs j hj ▸ hc)
  | @thr t i b b' pc pc' h h' ht ht' hw hb hb' hs hst =>
    refine ⟨hd', ?_, ?_, ?_⟩
    · intro u v j p q h k h1 h2
      have back : ∀ w p h, s'.won w = some (j, p, h) → ∃ p h, s.won w = some (j, p, h) := by
        intro w p h hww
        by_cases hwt : w = t
        · subst hwt; rw [ht'] at hww; cases hww; exact ⟨_, _, ht⟩
        · exact ⟨p, h, hw w hwt ▸ hww⟩
      obtain ⟨p1, k1, e1⟩ := back u p h h1
      obtain ⟨p2, k2, e2⟩ := back v q k h2
      exact hi.one u v j p1 p2 k1 k2 e1 e2
    · intro j c hc hno
      have hj : j ≠ i := by intro e; subst e; exact hno t _ _ ht'
      refine hi.free j c (hs j hj ▸ hc) ?_
      intro u p h hu
      by_cases hut : u = t
      · subst hut; rw [ht] at hu; cases hu; exact hj rfl
      · exact hno u p h (hw u hut ▸ hu)
    · intro u j p k c hu hc
      by_cases hut : u = t
      · subst hut
        rw [ht'] at hu; cases hu
        rw [hb'] at hc; cases hc
        exact (hi.held u i pc h b ht hb).thr hst
      · rw [hw u hut] at hu
        have hj : j ≠ i := by
          intro e; subst e
          exact hut (hi.one u t j p pc k h hu ht)
        exact hi.held u j p k c hu (hs j hj ▸ hc)

theorem uinv_run {cfg : Cfg} : ∀ {es : List Ev} {s s' : Sys}, UInv s → s.run cfg es = some s' → UInv s'
  | [], s, s', hi, h => by cases h; exact hi
  | e :: es, s, s', hi, h => by
    simp only [Sys.run, Option.bind_eq_some_iff] at h
    obtain ⟨s1, h1, h2⟩ := h
    exact uinv_run (uinv_step hi (step_cases h1).2) h2

/-- Every subscription is in order, with the call of `Unsubscribe` there may be. -/
theorem UInv.sub {s : Sys} (hi : UInv s) {i : Nat} {b : Sub} (hb : s.subs[i]? = some b) : ∃ w, SubOk b w := by
  by_cases hw : ∃ t p h, s.won t = some (i, p, h)
  · obtain ⟨t, p, h, hw⟩ := hw
    exact ⟨_, hi.held t i p h b hw hb⟩
  · exact ⟨none, hi.free i b hb (fun t p h e => hw ⟨t, p, h, e⟩)⟩

end Stomp.Client
