import Verif.Proofs.Client.Races
/-! # A goroutine of the client that takes no part in a step stays where it is -/
namespace Stomp.Client.Places
open Stomp

/-- Only caller `t` moves, and starts at most its helper. -/
structure OnlyCaller (t : Nat) (s s' : Sys) : Prop where
  others : ∀ u, u ≠ t → s'.threads[u]? = s.threads[u]?
  length : s'.threads.length = s.threads.length
  helper : ∀ th th', s.threads[t]? = some th → s'.threads[t]? = some th' → th'.helper = th.helper ∨ th'.helper = .start

/-- No `readLoop` of a subscription moves but that of `i`. -/
def OnlySub (i : Option Nat) (s s' : Sys) : Prop :=
  ∀ j b, s.subs[j]? = some b → ∃ b', s'.subs[j]? = some b' ∧ (i ≠ some j → b'.rl = b.rl)

theorem onlyCaller_same {t : Nat} {s s' : Sys} (h : s'.threads = s.threads) : OnlyCaller t s s' :=
  ⟨fun _ _ => by rw [h], by rw [h], fun _ _ h1 h2 => .inl (by rw [h, h1] at h2; cases h2; rfl)⟩

theorem onlyCaller_goto {t : Nat} {s s0 : Sys} {pc : Pc} (h : s0.threads = s.threads) : OnlyCaller t s (s0.goto t pc) := by
  refine ⟨fun u hu => ?_, ?_, fun th th' h1 h2 => .inl ?_⟩
  · simp only [Sys.goto, h, List.getElem?_modify]
    cases s.threads[u]? <;> simp [Ne.symm hu]
  · simp [Sys.goto, h]
  · simp only [Sys.goto, h, List.getElem?_modify, h1] at h2
    cases h2
    simp

theorem onlyCaller_ret {t : Nat} {s s0 : Sys} {r : Res} (h : s0.threads = s.threads) : OnlyCaller t s (s0.ret t r) :=
  let x := onlyCaller_goto (t := t) (pc := .ret r) h
  ⟨x.others, x.length, x.helper⟩

theorem onlyCaller_start {t : Nat} {s : Sys} {pc : Pc} {h : HPc} (hh : h = .start) :
    OnlyCaller t s { s with threads := s.threads.modify t fun th => { th with pc := pc, helper := h } } := by
  refine ⟨fun u hu => ?_, ?_, fun th th' h1 h2 => .inr ?_⟩
  · simp only [List.getElem?_modify]
    cases s.threads[u]? <;> simp [Ne.symm hu]
  · simp
  · simp only [List.getElem?_modify, h1] at h2
    cases h2
    simpa using hh

theorem onlyCaller_frameDone {t : Nat} {s s0 : Sys} {c : Call} {r : Res} (h : s0.threads = s.threads) : OnlyCaller t s (s0.frameDone t c r) := by
  unfold Sys.frameDone
  repeat' split
  all_goals first
    | exact onlyCaller_ret h
    | exact onlyCaller_goto h

theorem onlySub_same {i : Option Nat} {s s' : Sys} (h : s'.subs = s.subs) : OnlySub i s s' := fun j b hb => ⟨b, by rw [h]; exact hb, fun _ => rfl⟩

theorem onlySub_set {i : Option Nat} {k : Nat} {b b' : Sub} {s s' : Sys} (hb : s.subs[k]? = some b) (h : s'.subs = s.subs.set k b') (hr : i ≠ some k → b'.rl = b.rl) : OnlySub i s s' := by
  intro j x hx
  rw [h, List.getElem?_set]
  by_cases hj : k = j
  · subst hj
    rw [hx] at hb
    cases hb
    have hlt := (List.getElem?_eq_some_iff.1 hx).1
    exact ⟨b', by simp [hlt], hr⟩
  · exact ⟨x, by rw [if_neg hj]; exact hx, fun _ => rfl⟩

theorem onlySub_append {i : Option Nat} {b : Sub} {s s' : Sys} (h : s'.subs = s.subs ++ [b]) : OnlySub i s s' := by
  intro j x hx
  have hlt := (List.getElem?_eq_some_iff.1 hx).1
  exact ⟨x, by rw [h, List.getElem?_append_left hlt]; exact hx, fun _ => rfl⟩

theorem onlySub_frameDone {i : Option Nat} {t : Nat} {s s0 : Sys} {c : Call} {r : Res} (h : s0.subs = s.subs) : OnlySub i s (s0.frameDone t c r) := by
  unfold Sys.frameDone
  repeat' split
  all_goals exact onlySub_same h

theorem handOut_threads (s : Sys) (n : Nat) : (s.handOut n).threads = s.threads := by
  unfold Sys.handOut
  split <;> rfl

theorem onlySub_handOut {i : Option Nat} {s s' : Sys} (s0 : Sys) (n : Nat) (h0 : s0.subs = s.subs) (h : s'.subs = (s0.handOut n).subs) : OnlySub i s s' := by
  unfold Sys.handOut at h
  split at h
  · intro j x hx
    rw [h]
    simp only [h0, List.getElem?_modify, hx]
    refine ⟨_, rfl, fun _ => ?_⟩
    split <;> rfl
  · exact onlySub_same (h.trans h0)

/-- What a step of caller `t` leaves alone. -/
structure CallerStep (t : Nat) (s s' : Sys) : Prop where
  threads : OnlyCaller t s s'
  subs : OnlySub none s s'
  loop : s'.loop = s.loop
  read : s'.readDone = s.readDone

theorem frameDone_loop {s : Sys} {t : Nat} {c : Call} {r : Res} : (s.frameDone t c r).loop = s.loop ∧ (s.frameDone t c r).readDone = s.readDone := by
  unfold Sys.frameDone
  repeat' split
  all_goals exact ⟨rfl, rfl⟩

theorem handOut_loop {s : Sys} {n : Nat} : (s.handOut n).loop = s.loop ∧ (s.handOut n).readDone = s.readDone := by
  unfold Sys.handOut
  split <;> exact ⟨rfl, rfl⟩

theorem callerStep_frameDone {s s0 : Sys} {t : Nat} {c : Call} {r : Res} (ht : s0.threads = s.threads) (hs : s0.subs = s.subs) (hl : s0.loop = s.loop) (hr : s0.readDone = s.readDone) :
    CallerStep t s (s0.frameDone t c r) :=
  ⟨onlyCaller_frameDone ht, onlySub_frameDone hs, frameDone_loop.1.trans hl, frameDone_loop.2.trans hr⟩

theorem callerStep_frameEnter {s s' : Sys} {t : Nat} {c : Call} {f : Frame} (h : s.frameEnter t c f = some s') : CallerStep t s s' := by
  unfold Sys.frameEnter at h
  repeat' split at h
  all_goals first
    | contradiction
    | (simp only [Option.some.injEq] at h; subst h)
  · exact callerStep_frameDone rfl rfl rfl rfl
  · exact ⟨onlyCaller_goto rfl, onlySub_same rfl, rfl, rfl⟩
  · exact ⟨onlyCaller_goto rfl, onlySub_same rfl, rfl, rfl⟩

theorem callerStep_begin {s s' : Sys} {t : Nat} {c : Call} (h : s.begin t c = some s') : CallerStep t s s' := by
  unfold Sys.begin at h
  repeat' split at h
  all_goals first
    | contradiction
    | exact callerStep_frameEnter h
    | (simp only [Option.some.injEq] at h; subst h)
  all_goals first
    | exact ⟨onlyCaller_ret rfl, onlySub_same rfl, rfl, rfl⟩
    | exact ⟨onlyCaller_goto rfl, onlySub_same rfl, rfl, rfl⟩
    | exact ⟨onlyCaller_goto rfl, onlySub_append rfl, rfl, rfl⟩
    | (refine ⟨onlyCaller_ret rfl, onlySub_set (b := ?b) ?h rfl ?r, rfl, rfl⟩
       case h => assumption
       case r => intro _; rfl)
    | (refine ⟨onlyCaller_goto rfl, onlySub_set (b := ?b) ?h rfl ?r, rfl, rfl⟩
       case h => assumption
       case r => intro _; rfl)
    | exact ⟨onlyCaller_same rfl, onlySub_same rfl, rfl, rfl⟩

theorem callerStep_push {cfg : Cfg} {s s' : Sys} {t : Nat} {c : Call} {r : Req} (h : s.push cfg t c r = some s') : CallerStep t s s' := by
  unfold Sys.push at h
  dsimp only at h
  repeat' split at h
  all_goals first
    | contradiction
    | (simp only [Option.some.injEq] at h; subst h)
  all_goals first
    | exact ⟨onlyCaller_ret rfl, onlySub_same rfl, rfl, rfl⟩
    | exact ⟨onlyCaller_goto rfl, onlySub_same rfl, rfl, rfl⟩
    | exact ⟨onlyCaller_same rfl, onlySub_same rfl, rfl, rfl⟩
    | exact callerStep_frameDone rfl rfl rfl rfl
    | exact ⟨onlyCaller_ret (handOut_threads _ _), onlySub_handOut { s with writeCh := s.writeCh ++ [r], trace := s.trace ++ [.accepted t r] } _ rfl rfl, handOut_loop.1, handOut_loop.2⟩

theorem closeStep_rl {b b' : Sub} {p : ClosePc} : (∀ q, closeStep b p = .next b' q → b'.rl = b.rl) ∧ (closeStep b p = .fin b' → b'.rl = b.rl) := by
  unfold closeStep
  constructor
  · intro q h
    repeat' split at h
    all_goals first
      | contradiction
      | (injection h with h1 h2; subst h1; rfl)
  · intro h
    repeat' split at h
    all_goals first
      | contradiction
      | (injection h with h1; subst h1; rfl)

theorem callerStep_unsub {cfg : Cfg} {s s' : Sys} {t : Nat} {th : Thread} {i : Nat} {b : Sub} (hb : s.subs[i]? = some b) (h : s.unsub cfg t th i b = some s') : CallerStep t s s' := by
  unfold Sys.unsub at h
  repeat' split at h
  all_goals first
    | contradiction
    | (simp only [Option.some.injEq] at h; subst h)
  all_goals first
    | exact ⟨onlyCaller_ret rfl, onlySub_same rfl, rfl, rfl⟩
    | exact ⟨onlyCaller_goto rfl, onlySub_same rfl, rfl, rfl⟩
    | exact ⟨onlyCaller_same rfl, onlySub_same rfl, rfl, rfl⟩
    | exact ⟨onlyCaller_start rfl, onlySub_same rfl, rfl, rfl⟩
    | exact ⟨onlyCaller_ret rfl, onlySub_set hb rfl fun _ => rfl, rfl, rfl⟩
    | exact ⟨onlyCaller_goto rfl, onlySub_set hb rfl fun _ => rfl, rfl, rfl⟩
    | exact ⟨onlyCaller_ret rfl, onlySub_set hb rfl fun _ => closeStep_rl.2 (by assumption), rfl, rfl⟩
    | exact ⟨onlyCaller_goto rfl, onlySub_set hb rfl fun _ => closeStep_rl.1 _ (by assumption), rfl, rfl⟩

theorem callerStep_thread {cfg : Cfg} {s s' : Sys} {t : Nat} (h : s.thread cfg t = some s') : CallerStep t s s' := by
  unfold Sys.thread at h
  repeat' split at h
  all_goals first
    | contradiction
    | exact callerStep_begin h
    | exact callerStep_frameEnter h
    | exact callerStep_push h
    | exact callerStep_unsub (by assumption) h
    | (unfold Sys.waitClosed at h
       repeat' split at h
       all_goals first
         | contradiction
         | (simp only [Option.some.injEq] at h; subst h)
       all_goals first
         | exact ⟨onlyCaller_same rfl, onlySub_same rfl, rfl, rfl⟩
         | exact callerStep_frameDone rfl rfl rfl rfl)

theorem callerStep_timeout {cfg : Cfg} {s s' : Sys} {t : Nat} (h : s.timeout cfg t = some s') : CallerStep t s s' := by
  unfold Sys.timeout at h
  repeat' split at h
  all_goals first
    | contradiction
    | (simp only [Option.some.injEq] at h; subst h)
  all_goals first
    | exact ⟨onlyCaller_ret rfl, onlySub_same rfl, rfl, rfl⟩
    | exact ⟨onlyCaller_goto rfl, onlySub_same rfl, rfl, rfl⟩
    | exact callerStep_frameDone rfl rfl rfl rfl

theorem closeChan_rest (s : Sys) (n : Nat) : (s.closeChan n).threads = s.threads ∧ (s.closeChan n).subs = s.subs ∧ (s.closeChan n).readDone = s.readDone := by
  unfold Sys.closeChan
  split <;> exact ⟨rfl, rfl, rfl⟩

theorem failWith_rest {s s' : Sys} {x : Bytes} {o : List Nat} (h : s.failWith x o = some s') : s'.threads = s.threads ∧ s'.subs = s.subs ∧ s'.readDone = s.readDone := by
  unfold Sys.failWith at h
  split at h
  · injection h with h; subst h; exact ⟨rfl, rfl, rfl⟩
  · cases h

theorem takeReq_rest (s : Sys) (r : Req) (rest : List Req) :
    (s.takeReq r rest).1.threads = s.threads ∧ (s.takeReq r rest).1.subs = s.subs ∧ (s.takeReq r rest).1.readDone = s.readDone := by
  unfold Sys.takeReq
  dsimp only
  split
  · exact closeChan_rest _ _
  · exact ⟨rfl, rfl, rfl⟩

/-- `processLoop` by itself leaves all others alone. -/
theorem loop_rest {cfg : Cfg} {s s' : Sys} {e : Ev} (h : s.step cfg e = some s') (he : e.goroutine = .loop) (hd : ∀ ok, e ≠ .deliver ok) :
    s'.threads = s.threads ∧ s'.subs = s.subs ∧ s'.readDone = s.readDone := by
  unfold Sys.step at h
  split at h
  · cases h
  cases e with
  | call | thread | timeout | helper | net | netErr | sub | take | tick => cases he
  | deliver ok => exact absurd rfl (hd ok)
  | loopRead o =>
    dsimp only at h
    split at h
    · unfold Sys.loopRead at h
      dsimp only at h
      repeat' split at h
      all_goals first
        | contradiction
        | (have hh := failWith_rest h; exact hh)
        | (simp only [Option.some.injEq] at h; subst h; exact ⟨rfl, rfl, rfl⟩)
    · cases h
  | loopWrite k o =>
    dsimp only at h
    split at h
    · unfold Sys.loopWrite at h
      split at h
      · split at h
        · exact failWith_rest h
        · cases h
      · rename_i r rest _
        have ht := takeReq_rest s r rest
        split at h
        · rename_i s1 h1
          rw [h1] at ht
          injection h with h; subst h
          exact ht
        · rename_i s1 f h1
          rw [h1] at ht
          split at h
          · split at h
            · cases h
            · injection h with h; subst h
              exact ht
          · obtain ⟨a, b, c⟩ := failWith_rest h
            exact ⟨a.trans ht.1, b.trans ht.2.1, c.trans ht.2.2⟩
    · cases h
  | loopBeat k o =>
    dsimp only at h
    split at h
    · unfold Sys.loopBeat at h
      repeat' split at h
      all_goals first
        | contradiction
        | (have hh := failWith_rest h; exact hh)
        | (simp only [Option.some.injEq] at h; subst h; exact ⟨rfl, rfl, rfl⟩)
    · cases h
  | loopTimeout o =>
    dsimp only at h
    split at h
    · exact failWith_rest h
    · cases h
  | finish =>
    unfold Sys.finish at h
    repeat' split at h
    all_goals first
      | contradiction
      | (simp only [Option.some.injEq] at h; subst h; exact ⟨rfl, rfl, rfl⟩)

/-- Of the others only the receiver moves when `processLoop` sends. -/
structure Handed (g : Option Goroutine) (s s' : Sys) : Prop where
  threads : (s'.threads = s.threads) ∨ ∃ t, g = some (.caller t) ∧ OnlyCaller t s s'
  subs : (s'.subs = s.subs) ∨ ∃ i, g = some (.sub i) ∧ OnlySub (some i) s s'
  read : s'.readDone = s.readDone

theorem response_step {s : Sys} {t : Nat} {c : Call} {f : Frame} {k : Bool} : CallerStep t s (s.response t c f k) ∧ (s.response t c f k).subs = s.subs := by
  unfold Sys.response
  dsimp only
  split
  · exact ⟨⟨onlyCaller_ret rfl, onlySub_same rfl, rfl, rfl⟩, rfl⟩
  · split <;> exact ⟨⟨onlyCaller_ret rfl, onlySub_same rfl, rfl, rfl⟩, rfl⟩
  · refine ⟨callerStep_frameDone rfl rfl rfl rfl, ?_⟩
    unfold Sys.frameDone
    repeat' split
    all_goals rfl

theorem handed_handOver {s s' : Sys} {n : Nat} {f : Frame} {k : Bool} (h : s.handOver n f k = some s') :
    Handed (match s.chans[n]? with
      | some ⟨.caller t, _⟩ => some (.caller t)
      | some ⟨.sub i, _⟩ => some (.sub i)
      | none => none) s s' := by
  unfold Sys.handOver at h
  split at h
  · cases h
  · rename_i t _ hc
    repeat' split at h
    all_goals first
      | contradiction
      | (simp only [Option.some.injEq] at h; subst h)
    exact ⟨.inr ⟨t, by rw [hc], response_step.1.threads⟩, .inl response_step.2, response_step.1.read⟩
  · rename_i i _ hc
    repeat' split at h
    all_goals first
      | contradiction
      | (simp only [Option.some.injEq] at h; subst h)
    exact ⟨.inl rfl, .inr ⟨i, by rw [hc], onlySub_set (by assumption) rfl fun hne => absurd rfl hne⟩, rfl⟩

theorem handed_then {g : Option Goroutine} {s s1 s' : Sys} (h : Handed g s s1) (ht : s'.threads = s1.threads) (hs : s'.subs = s1.subs) (hr : s'.readDone = s1.readDone) : Handed g s s' := by
  refine ⟨?_, ?_, hr.trans h.read⟩
  · rcases h.threads with h | ⟨t, hg, h⟩
    · exact .inl (ht.trans h)
    · exact .inr ⟨t, hg, by rw [ht]; exact h.others, by rw [ht]; exact h.length, by rw [ht]; exact h.helper⟩
  · rcases h.subs with h | ⟨t, hg, h⟩
    · exact .inl (hs.trans h)
    · refine .inr ⟨t, hg, ?_⟩
      unfold OnlySub
      rw [hs]
      exact h

theorem handed_deliver {s s' : Sys} {k : Bool} (h : s.deliver k = some s') : Handed s.receiver s s' := by
  unfold Sys.deliver at h
  unfold Sys.receiver
  split at h <;> (try cases h) <;> (rename_i hl; rw [hl]; dsimp only; split at h)
  all_goals first
    | (simp only [Option.some.injEq] at h; subst h; exact ⟨.inl rfl, .inl rfl, rfl⟩)
    | (obtain ⟨s1, h1, rfl⟩ := Option.map_eq_some_iff.1 h
       have hh := handed_handOver h1
       first
         | exact handed_then hh (closeChan_rest _ _).1 (closeChan_rest _ _).2.1 (closeChan_rest _ _).2.2
         | exact handed_then hh rfl rfl rfl)

/-- What a step leaves alone. -/
theorem places {cfg : Cfg} {s s' : Sys} {e : Ev} (h : s.step cfg e = some s') :
    (∀ t th, s.threads[t]? = some th → ∃ th', s'.threads[t]? = some th' ∧ (¬takesPart s e (.caller t) → th'.pc = th.pc) ∧
      (¬takesPart s e (.helper t) → th'.helper = th.helper ∨ takesPart s e (.caller t) ∧ th'.helper = .start)) ∧
    (∀ i b, s.subs[i]? = some b → ∃ b', s'.subs[i]? = some b' ∧ (¬takesPart s e (.sub i) → b'.rl = b.rl)) ∧
    (¬takesPart s e .loop → s'.loop = s.loop) ∧ (¬takesPart s e .read → s'.readDone = s.readDone) := by
  have same : s'.threads = s.threads → ∀ t th, s.threads[t]? = some th → ∃ th', s'.threads[t]? = some th' ∧ (¬takesPart s e (.caller t) → th'.pc = th.pc) ∧
      (¬takesPart s e (.helper t) → th'.helper = th.helper ∨ takesPart s e (.caller t) ∧ th'.helper = .start) :=
    fun hs t th ht => ⟨th, by rw [hs]; exact ht, fun _ => rfl, fun _ => .inl rfl⟩
  have caller : ∀ t, takesPart s e (.caller t) → OnlyCaller t s s' → ∀ u th, s.threads[u]? = some th → ∃ th', s'.threads[u]? = some th' ∧ (¬takesPart s e (.caller u) → th'.pc = th.pc) ∧
      (¬takesPart s e (.helper u) → th'.helper = th.helper ∨ takesPart s e (.caller u) ∧ th'.helper = .start) := by
    intro t hp ho u th hu
    by_cases htu : u = t
    · subst htu
      have hlt := (List.getElem?_eq_some_iff.1 hu).1
      rw [← ho.length] at hlt
      exact ⟨_, List.getElem?_eq_getElem hlt, fun hn => absurd hp hn, fun _ => (ho.helper _ _ hu (List.getElem?_eq_getElem hlt)).imp id fun x => ⟨hp, x⟩⟩
    · exact ⟨th, by rw [ho.others u htu]; exact hu, fun _ => rfl, fun _ => .inl rfl⟩
  have subs : ∀ k, (∀ i, k = some i → takesPart s e (.sub i)) → OnlySub k s s' → ∀ i b, s.subs[i]? = some b → ∃ b', s'.subs[i]? = some b' ∧ (¬takesPart s e (.sub i) → b'.rl = b.rl) := by
    intro k hk ho i b hb
    obtain ⟨b', h1, h2⟩ := ho i b hb
    exact ⟨b', h1, fun hn => h2 fun hki => hn (hk i hki)⟩
  have none_ : ∀ i, (none : Option Nat) = some i → takesPart s e (.sub i) := fun i hi => by cases hi
  by_cases hl : e.goroutine = .loop ∧ ∀ ok, e ≠ .deliver ok
  · obtain ⟨h1, h2, h3⟩ := loop_rest h hl.1 hl.2
    exact ⟨same h1, subs none none_ (onlySub_same h2), fun hn => absurd (.inl hl.1) hn, fun _ => h3⟩
  unfold Sys.step at h
  split at h
  · cases h
  cases e with
  | loopRead | loopWrite | loopBeat | loopTimeout | finish => exact absurd ⟨rfl, by simp⟩ hl
  | deliver ok =>
    have hh := handed_deliver h
    refine ⟨?_, ?_, fun hn => absurd (.inl rfl) hn, fun _ => hh.read⟩
    · rcases hh.threads with h1 | ⟨t, hg, h1⟩
      · exact same h1
      · exact caller t (.inr ⟨⟨ok, rfl⟩, hg⟩) h1
    · rcases hh.subs with h1 | ⟨i, hg, h1⟩
      · exact subs none none_ (onlySub_same h1)
      · exact subs (some i) (fun j hj => by cases hj; exact .inr ⟨⟨ok, rfl⟩, hg⟩) h1
  | thread t =>
    have hh := callerStep_thread h
    exact ⟨caller t (.inl rfl) hh.threads, subs none none_ hh.subs, fun _ => hh.loop, fun _ => hh.read⟩
  | timeout t =>
    have hh := callerStep_timeout h
    exact ⟨caller t (.inl rfl) hh.threads, subs none none_ hh.subs, fun _ => hh.loop, fun _ => hh.read⟩
  | helper t =>
    have hs : OnlySub none s s' ∧ s'.loop = s.loop ∧ s'.readDone = s.readDone ∧ (s'.threads = s.threads ∨ ∃ x, s'.threads = s.threads.modify t fun th => { th with helper := x }) := by
      dsimp only at h
      unfold Sys.helper at h
      repeat' split at h
      all_goals first
        | contradiction
        | (simp only [Option.some.injEq] at h; subst h)
      all_goals first
        | exact ⟨onlySub_same rfl, rfl, rfl, .inl rfl⟩
        | exact ⟨onlySub_same rfl, rfl, rfl, .inr ⟨_, rfl⟩⟩
        | (refine ⟨onlySub_set (b := ?b) ?h rfl ?r, rfl, rfl, .inr ⟨_, rfl⟩⟩
           case h => assumption
           case r => intro _; rfl)
    obtain ⟨h1, h2, h3, h4⟩ := hs
    refine ⟨?_, subs none none_ h1, fun _ => h2, fun _ => h3⟩
    rcases h4 with h4 | ⟨x, h4⟩
    · exact same h4
    · intro u th hu
      rw [h4, List.getElem?_modify, hu]
      by_cases htu : t = u
      · subst htu
        exact ⟨_, rfl, fun _ => by simp, fun hn => absurd (.inl rfl) hn⟩
      · exact ⟨_, rfl, fun _ => by simp [htu], fun _ => .inl (by simp [htu])⟩
  | call c =>
    dsimp only at h
    split at h
    · simp only [Option.some.injEq] at h
      subst h
      refine ⟨fun t th ht => ⟨th, ?_, fun _ => rfl, fun _ => .inl rfl⟩, subs none none_ (onlySub_same rfl), fun _ => rfl, fun _ => rfl⟩
      show (s.threads ++ _)[t]? = _
      rw [List.getElem?_append_left (List.getElem?_eq_some_iff.1 ht).1]
      exact ht
    · cases h
  | net f =>
    dsimp only at h
    repeat' split at h
    all_goals first
      | contradiction
      | (simp only [Option.some.injEq] at h; subst h)
    exact ⟨same rfl, subs none none_ (onlySub_same rfl), fun _ => rfl, fun _ => rfl⟩
  | netErr =>
    dsimp only at h
    repeat' split at h
    all_goals first
      | contradiction
      | (simp only [Option.some.injEq] at h; subst h)
    exact ⟨same rfl, subs none none_ (onlySub_same rfl), fun _ => rfl, fun hn => absurd (.inl rfl) hn⟩
  | sub i =>
    have hs : OnlySub (some i) s s' ∧ s'.loop = s.loop ∧ s'.readDone = s.readDone ∧ s'.threads = s.threads := by
      dsimp only at h
      unfold Sys.subStep at h
      repeat' split at h
      all_goals first
        | contradiction
        | (simp only [Option.some.injEq] at h; subst h)
      all_goals first
        | exact ⟨onlySub_same rfl, rfl, rfl, rfl⟩
        | exact ⟨onlySub_set (by assumption) rfl fun hne => absurd rfl hne, rfl, rfl, rfl⟩
    exact ⟨same hs.2.2.2, subs (some i) (fun j hj => by cases hj; exact .inl rfl) hs.1, fun _ => hs.2.1, fun _ => hs.2.2.1⟩
  | take i =>
    dsimp only at h
    repeat' split at h
    all_goals first
      | contradiction
      | (simp only [Option.some.injEq] at h; subst h)
    refine ⟨same rfl, subs none none_ ?_, fun _ => rfl, fun _ => rfl⟩
    rename_i x hx _ _ _ _
    exact onlySub_set (b := x) hx rfl fun _ => rfl
  | tick =>
    simp only [Option.some.injEq] at h
    subst h
    exact ⟨same rfl, subs none none_ (onlySub_same rfl), fun _ => rfl, fun _ => rfl⟩

end Stomp.Client.Places
