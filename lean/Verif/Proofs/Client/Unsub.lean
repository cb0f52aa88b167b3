import Verif.Proofs.Client.Due
/-!
# Subscriptions and the calls of `Unsubscribe` on them

What a step does to a subscription, its `readLoop` and the one call of `Unsubscribe` that goes beyond the
compare-and-swap (`UEff`).
-/
namespace Stomp.Client
open Stomp

/-- The subscription, position and helper of a call of `Unsubscribe` that has passed the compare-and-swap. -/
def Thread.won (th : Thread) : Option (Nat × Pc × HPc) :=
  match th.call with
  | .unsubscribe i _ => if th.pc = .start ∨ th.pc = .ret .completedSubscription then none else some (i, th.pc, th.helper)
  | _ => none

def Sys.won (s : Sys) (t : Nat) : Option (Nat × Pc × HPc) := s.threads[t]?.bind Thread.won

/-- Before `sendFrame` returns. -/
def Pc.pre : Pc → Bool
  | .lock _ | .push _ | .wait _ => true
  | _ => false

/-- `Unsubscribe` and its goroutine. -/
inductive TStep (cfg : Cfg) (b : Sub) : Pc → HPc → Sub → Pc → HPc → Prop
  | move {pc pc' : Pc} {h : HPc} (hp : pc.pre = true) (hp' : pc'.pre = true) : TStep cfg b pc h b pc' h
  | back {pc : Pc} {h : HPc} {r : Res} (hp : pc.pre = true) (hr : r ≠ .closedUnexpectedly) (hr' : r ≠ .unsubTimeout) :
      TStep cfg b pc h b (.subLock r) h
  | lost {pc : Pc} {h : HPc} (hp : pc.pre = true) : TStep cfg b pc h b (.closing (.enter (some .closedUnexpectedly))) h
  | closeNext {p p' : ClosePc} {b' : Sub} {h : HPc} (hc : CNext b p b' p') : TStep cfg b (.closing p) h b' (.closing p') h
  | closeFin {p : ClosePc} {b' : Sub} {h : HPc} (hc : CFin b p b') : TStep cfg b (.closing p) h b' (.ret .closedUnexpectedly) h
  | lock {r : Res} {h : HPc} (hl : b.locked = false) : TStep cfg b (.subLock r) h { b with locked := true } (.check r) h
  | done {r : Res} {h : HPc} (hs : b.state = .closed) (hl : b.locked = true) :
      TStep cfg b (.check r) h { b with locked := false } (.ret r) h
  | timed {r : Res} {h : HPc} (hs : b.state ≠ .closed) (hcfg : cfg.unsubTimeout = true) : TStep cfg b (.check r) h b .select .start
  | wait {r : Res} {h : HPc} (hs : b.state ≠ .closed) (hcfg : cfg.unsubTimeout = false) : TStep cfg b (.check r) h b .condWait h
  | sleep {h : HPc} (hl : b.locked = true) :
      TStep cfg b .condWait h { b with tickets := b.tickets + 1, locked := false } (.asleep b.tickets) h
  | wake {k : Nat} {h : HPc} (hk : k < b.notified) : TStep cfg b (.asleep k) h b .relock h
  | relock {h : HPc} (hl : b.locked = false) : TStep cfg b .relock h { b with locked := true } (.check .ok) h
  | selected : TStep cfg b .select .done b (.check .ok) .done
  | timeout {h : HPc} (hcfg : cfg.unsubTimeout = true) : TStep cfg b .select h b .timedOut h
  | timedClosed {h : HPc} (hs : b.state = .closed) : TStep cfg b .timedOut h b (.ret .unsubTimeout) h
  | timedOpen {h : HPc} (hs : b.state ≠ .closed) : TStep cfg b .timedOut h b .putTimeout h
  | put {h : HPc} (hc : b.cClosed = false) (hl : b.buf.length < 16) :
      TStep cfg b .putTimeout h { b with buf := b.buf ++ [.unsubTimeout], got := b.got ++ [.unsubTimeout] } (.ret .unsubTimeout) h
  | hSleep {pc : Pc} (hl : b.locked = true) :
      TStep cfg b pc .start { b with tickets := b.tickets + 1, locked := false } pc (.asleep b.tickets)
  | hWake {pc : Pc} {k : Nat} (hk : k < b.notified) : TStep cfg b pc (.asleep k) b pc .relock
  | hRelock {pc : Pc} (hl : b.locked = false) : TStep cfg b pc .relock { b with locked := true } pc .done

/-- The `readLoop` of a subscription. -/
inductive RStep (s : Sys) (b : Sub) : Sub → Prop
  | recv {f : Frame} {n : Nat} (ha : AtSend s f n) (hr : b.rl = .recv)
      (ho : ∃ (i : Nat) (c : Bool), s.chans[n]? = some ⟨.sub i, c⟩ ∧ s.subs[i]? = some b) : RStep s b { b with rl := Sys.rlRecv f }
  | eof (hr : b.rl = .recv) (hc : s.chanClosed b.chan = true) : RStep s b { b with rl := .check (some .readFailed) }
  | put {m : CMsg} (hr : b.rl = .put m) (hc : b.cClosed = false) (hl : b.buf.length < 16) :
      RStep s b { b with buf := b.buf ++ [m], got := b.got ++ [m], rl := .recv }
  | checkClosed {m : Option CMsg} (hr : b.rl = .check m) (hs : b.state = .closed) : RStep s b { b with rl := .done }
  | checkOpen {m : Option CMsg} (hr : b.rl = .check m) (hs : b.state ≠ .closed) : RStep s b { b with rl := .closing (.enter m) }
  | closeNext {p p' : ClosePc} {b' : Sub} (hr : b.rl = .closing p) (h : CNext b p b' p') : RStep s b { b' with rl := .closing p' }
  | closeFin {p : ClosePc} {b' : Sub} (hr : b.rl = .closing p) (h : CFin b p b') : RStep s b { b' with rl := .done }

/-- Handed out to the user, or read from by the user. -/
inductive Eqv (b : Sub) : Sub → Prop
  | same : Eqv b b
  | returned : Eqv b { b with returned := true }
  | take {m : CMsg} {rest : List CMsg} (h : b.buf = m :: rest) : Eqv b { b with buf := rest }

/-- Other subscriptions are as before. -/
def SubsBut (s s' : Sys) (i : Nat) : Prop := ∀ j, j ≠ i → s'.subs[j]? = s.subs[j]?

def WonBut (s s' : Sys) (t : Nat) : Prop := ∀ u, u ≠ t → s'.won u = s.won u

inductive UEff (cfg : Cfg) (s s' : Sys) : Prop
  | quiet (ht : ∀ t, s'.won t = s.won t) (hs : ∀ (j : Nat) (b' : Sub), s'.subs[j]? = some b' →
      (∃ b, s.subs[j]? = some b ∧ Eqv b b') ∨ (s.subs.length = j ∧ ∃ id rt n, s.chans.length = n ∧ b' = Sub.new id rt n))
  | rl {i : Nat} {b b' : Sub} (ht : ∀ t, s'.won t = s.won t) (hb : s.subs[i]? = some b) (hb' : s'.subs[i]? = some b')
      (hs : SubsBut s s' i) (h : RStep s b b')
  | cas {t i : Nat} {b : Sub} {pc : Pc} (ht : s.won t = none) (ht' : s'.won t = some (i, pc, .none)) (hw : WonBut s s' t)
      (hb : s.subs[i]? = some b) (hb' : s'.subs[i]? = some { b with state := .closing }) (hs : SubsBut s s' i)
      (hst : b.state = .active) (hpc : (∃ f, pc = .lock f) ∨ pc = .ret .optionError)
  | thr {t i : Nat} {b b' : Sub} {pc pc' : Pc} {h h' : HPc} (ht : s.won t = some (i, pc, h)) (ht' : s'.won t = some (i, pc', h'))
      (hw : WonBut s s' t) (hb : s.subs[i]? = some b) (hb' : s'.subs[i]? = some b') (hs : SubsBut s s' i)
      (hst : TStep cfg b pc h b' pc' h')

/-! ## Reading `won` after a step -/

theorem won_of {s : Sys} {t : Nat} {th : Thread} {i : Nat} {o} (ht : s.threads[t]? = some th) (hc : th.call = .unsubscribe i o)
    (h1 : th.pc ≠ .start) (h2 : th.pc ≠ .ret .completedSubscription) : s.won t = some (i, th.pc, th.helper) := by
  unfold Sys.won
  rw [ht]
  simp [Thread.won, hc, h1, h2]

theorem won_none {s : Sys} {t : Nat} {th : Thread} (ht : s.threads[t]? = some th)
    (h : (∀ i o, th.call ≠ .unsubscribe i o) ∨ th.pc = .start ∨ th.pc = .ret .completedSubscription) : s.won t = none := by
  unfold Sys.won
  rw [ht]
  simp only [Option.bind_some]
  unfold Thread.won
  split
  · rename_i i o hc
    rcases h with h | h
    · exact absurd hc (h i o)
    · rw [if_pos h]
  · rfl

theorem won_modify {s s' : Sys} {t : Nat} {g : Thread → Thread} (h : s'.threads = s.threads.modify t g) : WonBut s s' t := by
  intro u hu
  unfold Sys.won
  rw [h, List.getElem?_modify]
  have : t ≠ u := fun e => hu e.symm
  simp [this]

theorem get_modify {s s' : Sys} {t : Nat} {th : Thread} {g : Thread → Thread} (h : s'.threads = s.threads.modify t g)
    (ht : s.threads[t]? = some th) : s'.threads[t]? = some (g th) := by
  rw [h, List.getElem?_modify, ht]
  simp

theorem won_threads {s s' : Sys} (h : s'.threads = s.threads) (t : Nat) : s'.won t = s.won t := by
  unfold Sys.won; rw [h]

/-- A caller that is not in `Unsubscribe` (or not beyond the compare-and-swap) moves. -/
theorem won_other {s s' : Sys} {t : Nat} {th : Thread} {g : Thread → Thread} (ht : s.threads[t]? = some th)
    (h : s'.threads = s.threads.modify t g) (h1 : s.won t = none) (h2 : s'.won t = none) (u : Nat) : s'.won u = s.won u := by
  by_cases hu : u = t
  · subst hu; rw [h1, h2]
  · exact won_modify h u hu

theorem won_call {s s' : Sys} {t : Nat} {th : Thread} {g : Thread → Thread} (ht : s.threads[t]? = some th)
    (h : s'.threads = s.threads.modify t g) (hc : ∀ i o, th.call ≠ .unsubscribe i o) (hg : (g th).call = th.call) (u : Nat) :
    s'.won u = s.won u :=
  won_other ht h (won_none ht (.inl hc)) (won_none (get_modify h ht) (.inl (by rw [hg]; exact hc))) u

theorem subs_same {s s' : Sys} (h : s'.subs = s.subs) : ∀ (j : Nat) (b' : Sub), s'.subs[j]? = some b' →
    (∃ b, s.subs[j]? = some b ∧ Eqv b b') ∨ (s.subs.length = j ∧ ∃ id rt n, s.chans.length = n ∧ b' = Sub.new id rt n) := by
  intro j b' hb
  rw [h] at hb
  exact .inl ⟨b', hb, .same⟩

theorem quiet_same' {cfg : Cfg} {s s' : Sys} (h1 : s'.threads = s.threads) (h2 : s'.subs = s.subs) : UEff cfg s s' :=
  .quiet (won_threads h1) (subs_same h2)

theorem set_get {s : Sys} {i : Nat} {b b' : Sub} (hb : s.subs[i]? = some b) : (s.subs.set i b')[i]? = some b' := by
  rw [List.getElem?_set, if_pos rfl, if_pos (List.getElem?_eq_some_iff.1 hb).1]

theorem subsBut_set {s s' : Sys} {i : Nat} {b' : Sub} (h : s'.subs = s.subs.set i b') : SubsBut s s' i := by
  intro j hj
  rw [h, List.getElem?_set, if_neg (fun e => hj e.symm)]

theorem subsBut_same {s s' : Sys} {i : Nat} (h : s'.subs = s.subs) : SubsBut s s' i := by
  intro j _; rw [h]

/-- A call of `Unsubscribe` moves from `pc` to `pc'`, both beyond the compare-and-swap. -/
theorem thr_mk {cfg : Cfg} {s s' : Sys} {t i : Nat} {th : Thread} {o} {b b' : Sub} {g : Thread → Thread}
    (ht : s.threads[t]? = some th) (hc : th.call = .unsubscribe i o) (hb : s.subs[i]? = some b)
    (h : s'.threads = s.threads.modify t g) (hg : (g th).call = th.call)
    (hp : th.pc ≠ .start ∧ th.pc ≠ .ret .completedSubscription) (hp' : (g th).pc ≠ .start ∧ (g th).pc ≠ .ret .completedSubscription)
    (hs : (s'.subs = s.subs ∧ b' = b) ∨ s'.subs = s.subs.set i b')
    (hst : TStep cfg b th.pc th.helper b' (g th).pc (g th).helper) : UEff cfg s s' := by
  refine .thr (won_of ht hc hp.1 hp.2) (won_of (get_modify h ht) (hg.trans hc) hp'.1 hp'.2) (won_modify h) hb ?_ ?_ hst
  · rcases hs with ⟨hs, rfl⟩ | hs
    · rw [hs]; exact hb
    · rw [hs]; exact set_get hb
  · rcases hs with ⟨hs, _⟩ | hs
    · exact subsBut_same hs
    · exact subsBut_set hs

/-- The subscription exists on which `Unsubscribe` was called; the goroutine of `waitWithTimeout` comes later. -/
structure DomTh (s : Sys) (th : Thread) : Prop where
  sub : ∀ (i : Nat) (o : List SubOpt), th.call = .unsubscribe i o → ∃ b, s.subs[i]? = some b
  fresh : th.pc = .start ∨ th.pc = .ret .completedSubscription → th.helper = .none
  check : th.pc ≠ .subLock .completedSubscription ∧ th.pc ≠ .check .completedSubscription

def Dom (s : Sys) : Prop := ∀ (t : Nat) (th : Thread), s.threads[t]? = some th → DomTh s th

/-- Neither at the beginning nor returning `ErrCompletedSubscription`. -/
def Pc.plain (pc : Pc) : Prop :=
  (pc ≠ .start ∧ pc ≠ .ret .completedSubscription) ∧ pc ≠ .subLock .completedSubscription ∧ pc ≠ .check .completedSubscription

theorem frameDone_plain (s : Sys) (t : Nat) (c : Call) {r : Res} (hr : r ≠ .completedSubscription) :
    ∃ pc : Pc, pc.plain ∧ (s.frameDone t c r).threads = s.threads.modify t (fun th => { th with pc := pc }) := by
  unfold Sys.frameDone
  split
  · split
    · exact ⟨_, by simp [Pc.plain], rfl⟩
    · exact ⟨_, by simp [Pc.plain, hr], rfl⟩
  · exact ⟨_, by simp [Pc.plain, hr], rfl⟩

theorem resOf_ne_completed (f : Frame) : resOf f ≠ .completedSubscription := by
  unfold resOf
  split <;> simp

theorem handOver_plain {s s' : Sys} {n : Nat} {f : Frame} {b : Bool} (h : s.handOver n f b = some s') :
    s'.threads = s.threads ∨ ∃ (t : Nat) (th : Thread) (pc : Pc), s.threads[t]? = some th ∧
      pc.plain ∧ s'.threads = s.threads.modify t (fun th => { th with pc := pc }) := by
  cases handOver_cases h with
  | send hn ht hpc => exact .inr ⟨_, _, _, ht, by simp [Pc.plain, resOf_ne_completed], rfl⟩
  | discOk hn ht hpc hcall hf hr => exact .inr ⟨_, _, _, ht, by rcases hr with rfl | rfl <;> simp [Pc.plain], rfl⟩
  | discErr hn ht hpc => exact .inr ⟨_, _, _, ht, by simp [Pc.plain], rfl⟩
  | @frame t th c hn ht hpc =>
    obtain ⟨pc, hp, h1⟩ := frameDone_plain s t th.call (resOf_ne_completed f)
    exact .inr ⟨_, _, pc, ht, hp, h1⟩
  | sub => exact .inl rfl

theorem dom_step {cfg : Cfg} {s s' : Sys} (hd : Dom s) (h : Step cfg s s') : Dom s' := by
  have he := ext_step h
  have ext : ∀ {th th' : Thread}, DomTh s th → th'.call = th.call → (th'.pc = .start ∨ th'.pc = .ret .completedSubscription → th'.helper = .none) ∧
      th'.pc ≠ .subLock .completedSubscription ∧ th'.pc ≠ .check .completedSubscription → DomTh s' th' := by
    intro th th' h1 h2 h3
    refine ⟨fun i o hc => ?_, h3.1, h3.2⟩
    obtain ⟨b, hb⟩ := h1.sub i o (h2.symm.trans hc)
    obtain ⟨b', hb', _⟩ := he.subs i b hb
    exact ⟨b', hb'⟩
  have keep : ∀ {th : Thread}, DomTh s th → DomTh s' th := fun h => ext h rfl ⟨h.fresh, h.check⟩
  have mod : ∀ {t : Nat} {th : Thread} {g : Thread → Thread}, s.threads[t]? = some th → s'.threads = s.threads.modify t g →
      (g th).call = th.call → ((g th).pc = .start ∨ (g th).pc = .ret .completedSubscription → (g th).helper = .none) ∧
      (g th).pc ≠ .subLock .completedSubscription ∧ (g th).pc ≠ .check .completedSubscription → Dom s' := by
    intro t th g ht h1 h2 h3
    unfold Dom
    rw [h1]
    exact all_modify (P := fun _ th => DomTh s th) (Q := fun _ th => DomTh s' th) hd ht (fun hp => ext hp h2 h3)
      (fun _ _ _ _ hp => keep hp)
  have plain : ∀ {t : Nat} {th : Thread} {pc : Pc}, s.threads[t]? = some th → pc.plain →
      s'.threads = s.threads.modify t (fun th => { th with pc := pc }) → Dom s' := by
    intro t th pc ht hp h1
    refine mod ht h1 rfl ⟨fun e => ?_, hp.2⟩
    rcases e with e | e
    · exact absurd e hp.1.1
    · exact absurd e hp.1.2
  by_cases hh : ∃ (t : Nat) (th : Thread), s.threads[t]? = some th ∧ s.helper t = some s'
  · obtain ⟨t, th, ht, h⟩ := hh
    obtain ⟨th, i, o, b, ht, hcall, hb, hs⟩ := helper_cases h
    have hf := (hd t th ht).fresh
    cases hs with
    | sleep hh => exact mod (g := fun th => { th with helper := .asleep b.tickets }) ht rfl rfl ⟨(fun e => by rw [hf e] at hh; cases hh), (hd t th ht).check⟩
    | sleepCrash => exact fun u th hu => keep (hd u th hu)
    | wake hh => exact mod (g := fun th => { th with helper := .relock }) ht rfl rfl ⟨(fun e => by rw [hf e] at hh; cases hh), (hd t th ht).check⟩
    | relock hh => exact mod (g := fun th => { th with helper := .done }) ht rfl rfl ⟨(fun e => by rw [hf e] at hh; cases hh), (hd t th ht).check⟩
  cases h with
  | call c hl =>
    refine all_append (Q := fun _ th => DomTh _ th) (fun u th hu => keep (hd u th hu)) ⟨fun i o hc => ?_, fun _ => rfl, by simp⟩
    subst hc
    simp only [Sys.legal] at hl
    cases hb : s.subs[i]? with
    | none => rw [hb] at hl; cases hl
    | some b => exact ⟨b, hb ▸ rfl⟩
  | helper ht hcall hb h => exact absurd ⟨_, _, ht, h⟩ hh
  | early ht hpc hm hcall hE =>
    refine mod ht rfl rfl ⟨fun e => ?_, by simp, by simp⟩
    cases hE <;> simp at e
  | acquire ht => exact mod ht rfl rfl (by simp)
  | acquireBare ht => exact mod ht rfl rfl (by simp)
  | @frameClosed t th ht =>
    obtain ⟨pc, hp, h1⟩ := frameDone_plain s.closeNet t th.call (r := .closedUnexpectedly) (by simp)
    exact plain ht hp h1
  | subscribe ht => exact mod ht rfl rfl (by simp)
  | unsubOption ht => exact mod ht rfl rfl (by simp)
  | unsubGo ht => exact mod ht rfl rfl (by simp)
  | unsubDone ht hpc => exact mod ht rfl rfl ⟨fun _ => (hd _ _ ht).fresh (.inl hpc), by simp, by simp⟩
  | mustGo ht => exact mod ht rfl rfl (by simp)
  | pushWait ht => exact mod ht rfl rfl (by simp)
  | pushRet ht => exact mod ht rfl rfl (by simp)
  | @pushSub t th r n d a o ht hpc =>
    have := handOut_spec { s with writeCh := s.writeCh ++ [r], trace := s.trace ++ [.accepted t r] } n
    refine mod (g := fun th => { th with pc := .ret .ok }) ht ?_ rfl (by simp)
    simp only [Sys.ret, Sys.goto, Sys.log, Sys.unlock, this.2.2.1]
  | pushFrameWait ht => exact mod ht rfl rfl (by simp)
  | @pushFrameRet t th r ht hpc =>
    obtain ⟨pc, hp, h1⟩ := frameDone_plain
      (Sys.unlock { s with writeCh := s.writeCh ++ [r], trace := s.trace ++ [.accepted t r] }) t th.call (r := .ok) (by simp)
    exact plain ht hp h1
  | @waitClosed t th n ht =>
    obtain ⟨pc, hp, h1⟩ := frameDone_plain s t th.call (r := .closedUnexpectedly) (by simp)
    exact plain ht hp h1
  | @frameTimeout t th n ht =>
    obtain ⟨pc, hp, h1⟩ := frameDone_plain s t th.call (r := .closedUnexpectedly) (by simp)
    exact plain ht hp h1
  | @unsub t th i o b _ ht hcall hb hpc h =>
    cases unsub_cases h with
    | closeCrash => exact fun u th hu => keep (hd u th hu)
    | doneCrash => exact fun u th hu => keep (hd u th hu)
    | sleepCrash => exact fun u th hu => keep (hd u th hu)
    | putCrash => exact fun u th hu => keep (hd u th hu)
    | timed => exact mod ht rfl rfl (by simp)
    | closeNext => exact mod ht rfl rfl (by simp)
    | closeFin => exact mod ht rfl rfl (by simp)
    | lock hpc =>
      have := (hd _ _ ht).check.1
      rw [hpc] at this
      exact mod ht rfl rfl ⟨by simp, by simp, by simpa using this⟩
    | done hpc =>
      have := (hd _ _ ht).check.2
      rw [hpc] at this
      exact mod ht rfl rfl ⟨fun e => absurd (e.resolve_left (by simp)) (by simpa using this), by simp, by simp⟩
    | wait => exact mod ht rfl rfl (by simp)
    | sleep => exact mod ht rfl rfl (by simp)
    | wake => exact mod ht rfl rfl (by simp)
    | relock => exact mod ht rfl rfl (by simp)
    | selected => exact mod ht rfl rfl (by simp)
    | timedClosed => exact mod ht rfl rfl (by simp)
    | timedOpen => exact mod ht rfl rfl (by simp)
    | put => exact mod ht rfl rfl (by simp)
  | sendTimeout ht => exact mod ht rfl rfl (by simp)
  | receiptTimeout ht => exact mod ht rfl rfl (by simp)
  | disconnectTimeout ht => exact mod ht rfl rfl (by simp)
  | selectTimeout ht => exact mod ht rfl rfl (by simp)
  | @takeQuiet r rest hl hw ho =>
    have sp := takeReq_spec s r rest
    intro u th hu
    rw [sp.2.2.2.2.2.2.2.1] at hu
    exact keep (hd u th hu)
  | @takeSent r rest f hl hw ho =>
    have sp := takeReq_spec s r rest
    intro u th hu
    replace hu : (s.takeReq r rest).1.threads[u]? = some th := hu
    rw [sp.2.2.2.2.2.2.2.1] at hu
    exact keep (hd u th hu)
  | @takeFail r rest f order hl hw ho hp =>
    have sp := takeReq_spec s r rest
    intro u th hu
    replace hu : (s.takeReq r rest).1.threads[u]? = some th := hu
    rw [sp.2.2.2.2.2.2.2.1] at hu
    exact keep (hd u th hu)
  | @giveReceipt f id n b s1 hl hc h1 =>
    have hth := (closeChan_spec { s1 with channels := s1.channels.del id, loop := .select } n).2.2.2.2.2.2.2.1
    obtain g | ⟨t, th, pc, ht, hp, g⟩ := handOver_plain h1
    · intro u th hu
      rw [hth, show ({ s1 with channels := s1.channels.del id, loop := .select } : Sys).threads = s1.threads from rfl, g] at hu
      exact keep (hd u th hu)
    · exact plain ht hp (hth.trans g)
  | @giveMessage f n b s1 hl hc h1 =>
    obtain g | ⟨t, th, pc, ht, hp, g⟩ := handOver_plain h1
    · intro u th hu
      replace hu : s1.threads[u]? = some th := hu
      rw [g] at hu
      exact keep (hd u th hu)
    · exact plain ht hp g
  | @giveErr f n l b s1 hl hc h1 =>
    have hth := (closeChan_spec { s1 with loop := .errs f l } n).2.2.2.2.2.2.2.1
    obtain g | ⟨t, th, pc, ht, hp, g⟩ := handOver_plain h1
    · intro u th hu
      rw [hth, show ({ s1 with loop := .errs f l } : Sys).threads = s1.threads from rfl, g] at hu
      exact keep (hd u th hu)
    · exact plain ht hp (hth.trans g)
  | @giveFail f n l b s1 hl hc h1 =>
    obtain g | ⟨t, th, pc, ht, hp, g⟩ := handOver_plain h1
    · intro u th hu
      replace hu : s1.threads[u]? = some th := hu
      rw [g] at hu
      exact keep (hd u th hu)
    · exact plain ht hp g
  | sub h =>
    obtain ⟨_, _, h1⟩ := subStep_spec h
    intro u th hu
    rw [h1] at hu
    exact keep (hd u th hu)
  | _ => exact fun u th hu => keep (hd u th hu)

/-- `sendFrame` returns `r` to its caller. -/
theorem frameDone_eff_u {cfg : Cfg} {s s0 : Sys} {t : Nat} {th : Thread} {r : Res} (hd : Dom s) (ht : s.threads[t]? = some th)
    (h1 : s0.threads = s.threads) (h2 : s0.subs = s.subs)
    (hp : th.pc.pre = true ∨ ∀ i o, th.call ≠ .unsubscribe i o) (hr' : r ≠ .unsubTimeout) : UEff cfg s (s0.frameDone t th.call r) := by
  by_cases hc : ∃ i o, th.call = .unsubscribe i o
  · obtain ⟨i, o, hc⟩ := hc
    obtain ⟨b, hb⟩ := (hd t th ht).sub i o hc
    have hp : th.pc.pre = true := hp.resolve_right (fun h => h i o hc)
    have hp2 : th.pc ≠ .start ∧ th.pc ≠ .ret .completedSubscription := by
      constructor <;> intro e <;> rw [e] at hp <;> cases hp
    unfold Sys.frameDone
    rw [hc]
    dsimp only
    split
    · exact thr_mk (b' := b) (g := fun th => { th with pc := .closing (.enter (some .closedUnexpectedly)) }) ht hc hb (by simp [Sys.goto, h1]) rfl hp2 (by simp)
        (.inl ⟨h2, rfl⟩) (.lost hp)
    · rename_i hr
      exact thr_mk (b' := b) (g := fun th => { th with pc := .subLock r }) ht hc hb (by simp [Sys.goto, h1]) rfl hp2 (by simp)
        (.inl ⟨h2, rfl⟩) (.back hp hr hr')
  · have hc' : ∀ i o, th.call ≠ .unsubscribe i o := fun i o h => hc ⟨i, o, h⟩
    have e : s0.frameDone t th.call r = s0.ret t r := by
      unfold Sys.frameDone
      split
      · rename_i i o h; exact absurd h (hc' i o)
      · rfl
    rw [e]
    exact .quiet (won_call ht (g := fun th => { th with pc := .ret r }) (by simp [Sys.ret, Sys.goto, Sys.log, h1]) hc' rfl)
      (subs_same (by simp [Sys.ret, Sys.goto, Sys.log, h2]))

theorem resOf_ne (f : Frame) : resOf f ≠ .unsubTimeout := by
  unfold resOf
  split <;> simp

theorem handOver_eff_u {cfg : Cfg} {s s' s1 : Sys} {n : Nat} {f : Frame} {y : Bool} (hd : Dom s) (ha : AtSend s f n)
    (h : s.handOver n f y = some s1) (hT : s'.threads = s1.threads) (hS : s'.subs = s1.subs) : UEff cfg s s' := by
  have lift : UEff cfg s s1 → UEff cfg s s' := by
    intro hu
    have hw : ∀ t, s'.won t = s1.won t := won_threads hT
    cases hu with
    | quiet a b => exact .quiet (fun t => (hw t).trans (a t)) (by rw [hS]; exact b)
    | rl a b c d e => exact .rl (fun t => (hw t).trans (a t)) b (by rw [hS]; exact c) (by intro j hj; rw [hS]; exact d j hj) e
    | cas a b c d e f g h =>
      exact .cas a ((hw _).trans b) (fun u hu => (hw u).trans (c u hu)) d (by rw [hS]; exact e) (by intro j hj; rw [hS]; exact f j hj) g h
    | thr a b c d e f g =>
      exact .thr a ((hw _).trans b) (fun u hu => (hw u).trans (c u hu)) d (by rw [hS]; exact e) (by intro j hj; rw [hS]; exact f j hj) g
  apply lift
  cases handOver_cases h with
  | send hn ht hpc hcall =>
    exact .quiet (won_call ht (g := fun th => { th with pc := .ret (resOf f) }) rfl (by rw [hcall]; simp) rfl) (subs_same rfl)
  | @discOk t th c r hn ht hpc hcall =>
    exact .quiet (won_call ht (g := fun th => { th with pc := .ret r }) rfl (by rw [hcall]; simp) rfl) (subs_same rfl)
  | discErr hn ht hpc hcall =>
    exact .quiet (won_call ht (g := fun th => { th with pc := .ret (.response f) }) rfl (by rw [hcall]; simp) rfl) (subs_same rfl)
  | frame hn ht hpc hcall => exact frameDone_eff_u hd ht rfl rfl (.inl (by rw [hpc]; rfl)) (resOf_ne f)
  | sub hn hb hrl => exact .rl (fun _ => rfl) hb (set_get hb) (subsBut_set rfl) (.recv ha hrl ⟨_, _, hn, hb⟩)

theorem ueff_step {cfg : Cfg} {s s' : Sys} (hd : Dom s) (h : Step cfg s s') : UEff cfg s s' := by
  cases h with
  | call c hl =>
    refine .quiet ?_ (subs_same rfl)
    intro u
    unfold Sys.won
    dsimp only
    rw [List.getElem?_append]
    split
    · rfl
    · rename_i hlt
      rw [List.getElem?_singleton]
      rw [show s.threads[u]? = none from List.getElem?_eq_none (by omega)]
      split
      · simp only [Option.bind_some, Option.bind_none]
        unfold Thread.won
        split <;> simp
      · rfl
  | @early t th r nc ht hpc hm c hcall he =>
    refine .quiet (won_call ht (g := fun th => { th with pc := .ret r }) rfl ?_ rfl) (subs_same rfl)
    cases he <;> rw [hcall] <;> simp
  | @acquire t th f last ht hm hc ha hr =>
    by_cases hcall : ∃ i o, th.call = .unsubscribe i o
    · obtain ⟨i, o, hcall⟩ := hcall
      obtain ⟨b, hb⟩ := (hd t th ht).sub i o hcall
      have hpc : th.pc = .lock f := by cases ha <;> simp_all
      exact thr_mk (b' := b) (g := fun th => { th with pc := .push ⟨f, some s.chans.length⟩ }) ht hcall hb rfl rfl (by simp [hpc]) (by simp) (.inl ⟨rfl, rfl⟩)
        (.move (by rw [hpc]; rfl) rfl)
    · exact .quiet (won_call ht (g := fun th => { th with pc := .push ⟨f, some s.chans.length⟩ }) rfl (fun i o h => hcall ⟨i, o, h⟩) rfl) (subs_same rfl)
  | @acquireBare t th f last ht hm hc ha hr =>
    by_cases hcall : ∃ i o, th.call = .unsubscribe i o
    · obtain ⟨i, o, hcall⟩ := hcall
      obtain ⟨b, hb⟩ := (hd t th ht).sub i o hcall
      have hpc : th.pc = .lock f := by cases ha <;> simp_all
      exact thr_mk (b' := b) (g := fun th => { th with pc := .push ⟨f, none⟩ }) ht hcall hb rfl rfl (by simp [hpc]) (by simp) (.inl ⟨rfl, rfl⟩)
        (.move (by rw [hpc]; rfl) rfl)
    · exact .quiet (won_call ht (g := fun th => { th with pc := .push ⟨f, none⟩ }) rfl (fun i o h => hcall ⟨i, o, h⟩) rfl) (subs_same rfl)
  | @frameClosed t th ht hm hc hpc =>
    refine frameDone_eff_u (s0 := s.closeNet) hd ht rfl rfl ?_ (by simp)
    rcases hpc with ⟨_, f, hf⟩ | ⟨f, hf⟩
    · exact .inr (by rw [hf]; simp)
    · exact .inl (by rw [hf]; rfl)
  | @subscribe t th d a o last f id rt ht hpc hcall hm hc hf =>
    refine .quiet (won_call ht (g := fun th => { th with pc := .push ⟨f, some s.chans.length⟩ }) rfl (by rw [hcall]; simp) rfl) ?_
    intro j b' hj
    replace hj : (s.subs ++ [Sub.new id rt s.chans.length])[j]? = some b' := hj
    rw [List.getElem?_append] at hj
    split at hj
    · exact .inl ⟨b', hj, .same⟩
    · rename_i hlt
      rw [List.getElem?_singleton] at hj
      split at hj
      · cases hj
        exact .inr ⟨by omega, _, _, _, rfl, rfl⟩
      · cases hj
  | @unsubOption t th i o b ht hpc hcall hb hst hf =>
    refine .cas (won_none ht (.inr (.inl hpc))) ?_ (won_modify (g := fun th => { th with pc := .ret .optionError }) rfl) hb (set_get hb)
      (subsBut_set rfl) hst (.inr rfl)
    have := won_of (s := (s.setSub i { b with state := .closing }).ret t .optionError)
      (get_modify (g := fun th => { th with pc := .ret .optionError }) rfl ht) hcall (by simp) (by simp)
    rw [this, (hd t th ht).fresh (.inl hpc)]
  | @unsubGo t th i o b f ht hpc hcall hb hst hf =>
    refine .cas (won_none ht (.inr (.inl hpc))) ?_ (won_modify (g := fun th => { th with pc := .lock f }) rfl) hb (set_get hb)
      (subsBut_set rfl) hst (.inl ⟨f, rfl⟩)
    have := won_of (s := (s.setSub i { b with state := .closing }).goto t (.lock f))
      (get_modify (g := fun th => { th with pc := .lock f }) rfl ht) hcall (by simp) (by simp)
    rw [this, (hd t th ht).fresh (.inl hpc)]
  | @unsubDone t th i o b ht hpc hcall hb hst =>
    refine .quiet (won_other ht (g := fun th => { th with pc := .ret .completedSubscription }) rfl (won_none ht (.inr (.inl hpc))) ?_) (subs_same rfl)
    exact won_none (get_modify (g := fun th => { th with pc := .ret .completedSubscription }) rfl ht) (.inr (.inr rfl))
  | mustGo ht hpc hcall => exact .quiet (won_call ht (g := fun th => { th with pc := .ret .ok }) rfl (by rw [hcall]; simp) rfl) (subs_same rfl)
  | @pushWait t th r n ht hpc hw hcap hr hcall =>
    refine .quiet (won_call ht (g := fun th => { th with pc := .wait n }) rfl ?_ rfl) (subs_same rfl)
    rcases hcall with ⟨_, _, _, _, hcall⟩ | hcall <;> rw [hcall] <;> simp
  | pushRet ht hpc hw hcap hr hcall =>
    exact .quiet (won_call ht (g := fun th => { th with pc := .ret .ok }) rfl (by rw [hcall]; simp) rfl) (subs_same rfl)
  | @pushSub t th r n d a o ht hpc hw hcap hr hcall =>
    have sp := handOut_spec { s with writeCh := s.writeCh ++ [r], trace := s.trace ++ [.accepted t r] } n
    refine .quiet (won_call ht (g := fun th => { th with pc := .ret .ok }) ?_ (by rw [hcall]; simp) rfl) ?_
    · simp only [Sys.ret, Sys.goto, Sys.log, Sys.unlock, sp.2.2.1]
    · intro j b' hb
      replace hb : (Sys.handOut { s with writeCh := s.writeCh ++ [r], trace := s.trace ++ [.accepted t r] } n).subs[j]? = some b' := hb
      unfold Sys.handOut at hb
      split at hb
      · rename_i i _ _
        simp only at hb
        rw [List.getElem?_modify] at hb
        cases hc : s.subs[j]? with
        | none => rw [hc] at hb; cases hb
        | some b =>
          rw [hc] at hb
          left
          refine ⟨b, rfl, ?_⟩
          simp only [Option.map_eq_map, Option.map_some, Option.some.injEq] at hb
          subst hb
          split
          · exact .returned
          · exact .same
      · exact .inl ⟨b', hb, .same⟩
  | @pushFrameWait t th r n ht hpc hw hcap hr hcall =>
    by_cases hc : ∃ i o, th.call = .unsubscribe i o
    · obtain ⟨i, o, hc⟩ := hc
      obtain ⟨b, hb⟩ := (hd t th ht).sub i o hc
      exact thr_mk (b' := b) (g := fun th => { th with pc := .wait n }) ht hc hb rfl rfl (by simp [hpc]) (by simp) (.inl ⟨rfl, rfl⟩)
        (.move (by rw [hpc]; rfl) rfl)
    · exact .quiet (won_call ht (g := fun th => { th with pc := .wait n }) rfl (fun i o h => hc ⟨i, o, h⟩) rfl) (subs_same rfl)
  | @pushFrameRet t th r ht hpc hw hcap hr hcall =>
    exact frameDone_eff_u (s0 := Sys.unlock { s with writeCh := s.writeCh ++ [r], trace := s.trace ++ [.accepted t r] }) hd ht rfl rfl
      (.inl (by rw [hpc]; rfl)) (by simp)
  | @waitClosed t th n ht hpc => exact frameDone_eff_u hd ht rfl rfl (.inl (by rw [hpc]; rfl)) (by simp)
  | @frameTimeout t th n ht hpc => exact frameDone_eff_u hd ht rfl rfl (.inl (by rw [hpc]; rfl)) (by simp)
  | @unsub t th i o b _ ht hcall hb hpc h =>
    cases unsub_cases h with
    | closeCrash => exact quiet_same' rfl rfl
    | doneCrash => exact quiet_same' rfl rfl
    | sleepCrash => exact quiet_same' rfl rfl
    | putCrash => exact quiet_same' rfl rfl
    | @closeNext p p' b' hpc hc =>
      exact thr_mk (g := fun th => { th with pc := .closing p' }) ht hcall hb rfl rfl (by simp [hpc]) (by simp) (.inr rfl) (by rw [hpc]; exact .closeNext hc)
    | @closeFin p b' hpc hc =>
      exact thr_mk (g := fun th => { th with pc := .ret .closedUnexpectedly }) ht hcall hb rfl rfl (by simp [hpc]) (by simp) (.inr rfl) (by rw [hpc]; exact .closeFin hc)
    | @lock r hpc hl =>
      exact thr_mk (g := fun th => { th with pc := .check r }) ht hcall hb rfl rfl (by simp [hpc]) (by simp) (.inr rfl) (by rw [hpc]; exact .lock hl)
    | @done r hpc hs hl =>
      by_cases hr : r = .completedSubscription
      · subst hr; exact absurd hpc (hd t th ht).check.2
      · exact thr_mk (g := fun th => { th with pc := .ret r }) ht hcall hb rfl rfl (by simp [hpc]) (by simp [hr]) (.inr rfl) (by rw [hpc]; exact .done hs hl)
    | timed hpc hs hcfg =>
      exact thr_mk (g := fun th => { th with pc := .select, helper := .start }) ht hcall hb rfl rfl (by simp [hpc]) (by simp) (.inl ⟨rfl, rfl⟩) (by rw [hpc]; exact .timed hs hcfg)
    | wait hpc hs hcfg =>
      exact thr_mk (g := fun th => { th with pc := .condWait }) ht hcall hb rfl rfl (by simp [hpc]) (by simp) (.inl ⟨rfl, rfl⟩) (by rw [hpc]; exact .wait hs hcfg)
    | sleep hpc hl =>
      exact thr_mk (g := fun th => { th with pc := .asleep b.tickets }) ht hcall hb rfl rfl (by simp [hpc]) (by simp) (.inr rfl) (by rw [hpc]; exact .sleep hl)
    | wake hpc hk =>
      exact thr_mk (g := fun th => { th with pc := .relock }) ht hcall hb rfl rfl (by simp [hpc]) (by simp) (.inl ⟨rfl, rfl⟩) (by rw [hpc]; exact .wake hk)
    | relock hpc hl =>
      exact thr_mk (g := fun th => { th with pc := .check .ok }) ht hcall hb rfl rfl (by simp [hpc]) (by simp) (.inr rfl) (by rw [hpc]; exact .relock hl)
    | selected hpc hh =>
      exact thr_mk (g := fun th => { th with pc := .check .ok }) ht hcall hb rfl rfl (by simp [hpc]) (by simp) (.inl ⟨rfl, rfl⟩) (by rw [hpc, hh]; exact .selected)
    | timedClosed hpc hs =>
      exact thr_mk (g := fun th => { th with pc := .ret .unsubTimeout }) ht hcall hb rfl rfl (by simp [hpc]) (by simp) (.inl ⟨rfl, rfl⟩) (by rw [hpc]; exact .timedClosed hs)
    | timedOpen hpc hs =>
      exact thr_mk (g := fun th => { th with pc := .putTimeout }) ht hcall hb rfl rfl (by simp [hpc]) (by simp) (.inl ⟨rfl, rfl⟩) (by rw [hpc]; exact .timedOpen hs)
    | put hpc hc hl =>
      exact thr_mk (g := fun th => { th with pc := .ret .unsubTimeout }) ht hcall hb rfl rfl (by simp [hpc]) (by simp) (.inr rfl) (by rw [hpc]; exact .put hc hl)
  | sendTimeout ht hpc hcall => exact .quiet (won_call ht (g := fun th => { th with pc := .ret .sendTimeout }) rfl (by rw [hcall]; simp) rfl) (subs_same rfl)
  | receiptTimeout ht hpc hcall => exact .quiet (won_call ht (g := fun th => { th with pc := .ret .receiptTimeout }) rfl (by rw [hcall]; simp) rfl) (subs_same rfl)
  | disconnectTimeout ht hpc hcall => exact .quiet (won_call ht (g := fun th => { th with pc := .ret .disconnectTimeout }) rfl (by rw [hcall]; simp) rfl) (subs_same rfl)
  | @selectTimeout t th i o ht hpc hcall hcfg =>
    obtain ⟨b, hb⟩ := (hd t th ht).sub i o hcall
    exact thr_mk (b' := b) (g := fun th => { th with pc := .timedOut }) ht hcall hb rfl rfl (by simp [hpc]) (by simp) (.inl ⟨rfl, rfl⟩) (by rw [hpc]; exact .timeout hcfg)
  | helper _ _ _ h =>
    obtain ⟨th, i, o, b, ht, hcall, hb, hs⟩ := helper_cases h
    have hf := (hd _ th ht).fresh
    have hp : th.helper ≠ .none → th.pc ≠ .start ∧ th.pc ≠ .ret .completedSubscription := fun h =>
      ⟨fun e => h (hf (.inl e)), fun e => h (hf (.inr e))⟩
    cases hs with
    | sleepCrash => exact quiet_same' rfl rfl
    | sleep hh hl =>
      exact thr_mk (g := fun th => { th with helper := .asleep b.tickets }) ht hcall hb rfl rfl (hp (by simp [hh])) (hp (by simp [hh])) (.inr rfl) (by rw [hh]; exact .hSleep hl)
    | wake hh hk =>
      exact thr_mk (g := fun th => { th with helper := .relock }) ht hcall hb rfl rfl (hp (by simp [hh])) (hp (by simp [hh])) (.inl ⟨rfl, rfl⟩) (by rw [hh]; exact .hWake hk)
    | relock hh hl =>
      exact thr_mk (g := fun th => { th with helper := .done }) ht hcall hb rfl rfl (hp (by simp [hh])) (hp (by simp [hh])) (.inr rfl) (by rw [hh]; exact .hRelock hl)
  | @takeQuiet r rest hl hw ho =>
    have sp := takeReq_spec s r rest
    exact quiet_same' sp.2.2.2.2.2.2.2.1 sp.2.2.2.2.2.2.2.2.1
  | @takeSent r rest f hl hw ho =>
    have sp := takeReq_spec s r rest
    exact quiet_same' sp.2.2.2.2.2.2.2.1 sp.2.2.2.2.2.2.2.2.1
  | @takeFail r rest f order hl hw ho hp =>
    have sp := takeReq_spec s r rest
    exact quiet_same' sp.2.2.2.2.2.2.2.1 sp.2.2.2.2.2.2.2.2.1
  | @giveReceipt f id n b s1 hl hc h1 =>
    have sp := closeChan_spec { s1 with channels := s1.channels.del id, loop := .select } n
    exact handOver_eff_u hd (.inl ⟨id, hl⟩) h1 sp.2.2.2.2.2.2.2.1 sp.2.2.2.2.2.2.2.2.1
  | giveMessage hl hc h1 => exact handOver_eff_u hd (.inr (.inl hl)) h1 rfl rfl
  | @giveErr f n l b s1 hl hc h1 =>
    have sp := closeChan_spec { s1 with loop := .errs f l } n
    exact handOver_eff_u hd (.inr (.inr (.inl ⟨_, hl⟩))) h1 sp.2.2.2.2.2.2.2.1 sp.2.2.2.2.2.2.2.2.1
  | giveFail hl hc h1 => exact handOver_eff_u hd (.inr (.inr (.inr ⟨_, hl⟩))) h1 rfl rfl
  | sub h =>
    obtain ⟨b, hb, hs⟩ := subStep_cases h
    have hth : ∀ t, s'.won t = s.won t := won_threads (subStep_spec h).2.2
    cases hs with
    | putCrash => exact quiet_same' rfl rfl
    | closeCrash => exact quiet_same' rfl rfl
    | eof hr hc => exact .rl hth hb (set_get hb) (subsBut_set rfl) (.eof hr hc)
    | put hr hc hl => exact .rl hth hb (set_get hb) (subsBut_set rfl) (.put hr hc hl)
    | checkClosed hr hs => exact .rl hth hb (set_get hb) (subsBut_set rfl) (.checkClosed hr hs)
    | checkOpen hr hs => exact .rl hth hb (set_get hb) (subsBut_set rfl) (.checkOpen hr hs)
    | closeNext hr hx => exact .rl hth hb (set_get hb) (subsBut_set rfl) (.closeNext hr hx)
    | closeFin hr hx => exact .rl hth hb (set_get hb) (subsBut_set rfl) (.closeFin hr hx)
  | @take i b m rest hb hbuf =>
    refine .quiet (fun _ => rfl) ?_
    intro j b' hj
    replace hj : (s.subs.set i { b with buf := rest })[j]? = some b' := hj
    rw [List.getElem?_set] at hj
    split at hj
    · rename_i e
      subst e
      split at hj
      · cases hj; exact .inl ⟨b, hb, .take hbuf⟩
      · cases hj
    · exact .inl ⟨b', hj, .same⟩
  | _ => exact quiet_same' rfl rfl

end Stomp.Client
