import Verif.Proofs.Client.Stats
import Verif.Spec.Stats
import Verif.Props.Client.Order
/-!
# C69: the statistics of a connection
-/
namespace Stomp.Client
open Stomp

theorem owes_split (l : List Thread) : l.countP Thread.owes =
    (l.countP fun th => match th.pc with
      | .push _ => true
      | _ => false) +
    (l.countP fun th => match th.call, th.pc with
      | .send .., .ret .sendTimeout => true
      | _, _ => false) := by
  induction l with
  | nil => rfl
  | cons th l ih =>
    rw [List.countP_cons, List.countP_cons, List.countP_cons, ih]
    obtain ⟨call, pc, hl⟩ := th
    have : (if Thread.owes ⟨call, pc, hl⟩ = true then 1 else 0) =
        (if (match pc with
          | .push _ => true
          | _ => false) = true then 1 else 0) +
        (if (match call, pc with
          | .send .., .ret .sendTimeout => true
          | _, _ => false) = true then 1 else 0) := by
      unfold Thread.owes
      cases pc with
      | ret r => cases call <;> cases r <;> rfl
      | _ => cases call <;> rfl
    dsimp only at this ⊢
    omega

theorem debt_eq (s : Sys) : debt s = (Spec.handedOver s).length + Spec.handing s + Spec.gaveUp s := by
  unfold debt Spec.handing Spec.gaveUp
  rw [owes_split, ← Nat.add_assoc]
  rfl

theorem crun_snoc {cfg : Cfg} {b : Bool} {P : CSys → List CEv → Prop} (hs : ∀ x e x' es, P x es → x.step cfg b e = some x' → P x' (es ++ [e])) :
    ∀ (es pre : List CEv) (x x' : CSys), P x pre → x.run cfg b es = some x' → P x' (pre ++ es)
  | [], pre, x, x', hp, h => by
    injection h with h; subst h
    rw [List.append_nil]; exact hp
  | e :: es, pre, x, x', hp, h => by
    unfold CSys.run at h
    obtain ⟨y, h1, h2⟩ := Option.bind_eq_some_iff.1 h
    have := crun_snoc hs es (pre ++ [e]) y x' (hs _ _ _ _ hp h1) h2
    rwa [List.append_assoc] at this

theorem crun_induction {cfg : Cfg} {b : Bool} {P : CSys → List CEv → Prop} {n : Nat} {es : List CEv} {x : CSys} (h : (CSys.init n).run cfg b es = some x)
    (h0 : P (CSys.init n) []) (hs : ∀ x e x' es, P x es → x.step cfg b e = some x' → P x' (es ++ [e])) : P x es :=
  crun_snoc hs es [] _ _ h0 h

/-- The five kinds of steps. -/
theorem cstep_cases {cfg : Cfg} {b : Bool} {x x' : CSys} {e : CEv} (h : x.step cfg b e = some x') :
    (∃ f, e = .read f ∧ x.held = none ∧ x.sys.crashed = none ∧ x.sys.readDone = false ∧
      x' = { x with held := some f, readsReceived := x.readsReceived + b.toNat }) ∨
    (∃ f s, e = .put ∧ x.held = some f ∧ x.sys.step cfg (.net f) = some s ∧ x' = { x with sys := s, held := none }) ∨
    (∃ s, e = .sys .netErr ∧ x.held = none ∧ x.sys.step cfg .netErr = some s ∧ x' = { x with sys := s }) ∨
    (∃ a s, e = .sys a ∧ (∀ f, a ≠ .net f) ∧ a ≠ .netErr ∧ x.sys.step cfg a = some s ∧
      x' = { x with sys := s, writesSent := x.writesSent + (b && x.counts a).toNat }) := by
  have e1 : ∀ c : Bool, (if c = true then 1 else 0) = c.toNat := by intro c; cases c <;> rfl
  unfold CSys.step at h
  split at h
  · cases h
  · split at h
    · cases h
    · rename_i hh
      obtain ⟨s, h1, rfl⟩ := Option.map_eq_some_iff.1 h
      exact .inr (.inr (.inl ⟨s, rfl, by simpa using hh, h1, rfl⟩))
  · rename_i a n1 n2
    obtain ⟨s, h1, rfl⟩ := Option.map_eq_some_iff.1 h
    exact .inr (.inr (.inr ⟨a, s, rfl, fun f e => n1 f (by rw [e]), fun e => n2 (by rw [e]), h1, by rw [e1]⟩))
  · rename_i f
    split at h
    · cases h
    · rename_i hh
      injection h with h; subst h
      simp only [Bool.or_eq_true, not_or, Bool.not_eq_true, Option.isSome_eq_false_iff, Option.isNone_iff_eq_none] at hh
      exact .inl ⟨f, rfl, hh.2, hh.1.1, hh.1.2, by rw [e1]⟩
  · split at h
    · cases h
    · rename_i f hf
      obtain ⟨s, h1, rfl⟩ := Option.map_eq_some_iff.1 h
      exact .inr (.inl ⟨f, s, rfl, hf, h1, rfl⟩)

theorem run_snoc_one {cfg : Cfg} {s' s'' : Sys} {e : Ev} : ∀ (es : List Ev) (s : Sys), s.run cfg es = some s' → s'.step cfg e = some s'' → s.run cfg (es ++ [e]) = some s''
  | [], s, h, h1 => by
    injection h with h; subst h
    show (s.step cfg e).bind _ = _
    rw [h1]; rfl
  | a :: es, s, h, h1 => by
    unfold Sys.run at h
    obtain ⟨y, h2, h3⟩ := Option.bind_eq_some_iff.1 h
    show (s.step cfg a).bind _ = _
    rw [h2]
    exact run_snoc_one es y h3 h1

/-- **C69**, counting changes nothing: without the counters an execution is one of the system without them. What is proved of the system holds here. -/
theorem C69_sound {cfg : Cfg} {b : Bool} {n : Nat} {es : List CEv} {x : CSys} (h : (CSys.init n).run cfg b es = some x) :
    ∃ es', (Sys.init n).run cfg es' = some x.sys := by
  refine crun_induction (P := fun x _ => ∃ es', (Sys.init n).run cfg es' = some x.sys) h ⟨[], rfl⟩ ?_
  rintro x e x' es ⟨es', hr⟩ h
  rcases cstep_cases h with ⟨f, rfl, _, _, _, rfl⟩ | ⟨f, s, rfl, _, h1, rfl⟩ | ⟨s, rfl, _, h1, rfl⟩ | ⟨a, s, rfl, _, _, h1, rfl⟩
  · exact ⟨es', hr⟩
  · exact ⟨_, run_snoc_one _ _ hr h1⟩
  · exact ⟨_, run_snoc_one _ _ hr h1⟩
  · exact ⟨_, run_snoc_one _ _ hr h1⟩

theorem run_append {cfg : Cfg} {b : Bool} : ∀ (es fs : List CEv) (x : CSys), x.run cfg b (es ++ fs) = (x.run cfg b es).bind fun y => y.run cfg b fs
  | [], fs, x => rfl
  | e :: es, fs, x => by
    show (x.step cfg b e).bind _ = ((x.step cfg b e).bind _).bind _
    cases x.step cfg b e with
    | none => rfl
    | some y => exact run_append es fs y

/-- **C69**, counting excludes nothing: every execution of the system is one with the counters. -/
theorem C69_complete {cfg : Cfg} {b : Bool} {n : Nat} {es : List Ev} {s : Sys} (h : (Sys.init n).run cfg es = some s) :
    ∃ (es' : List CEv) (x : CSys), (CSys.init n).run cfg b es' = some x ∧ x.sys = s ∧ x.held = none := by
  refine run_induction (P := fun s => ∃ (es' : List CEv) (x : CSys), (CSys.init n).run cfg b es' = some x ∧ x.sys = s ∧ x.held = none)
    ?_ es _ _ ⟨[], _, rfl, rfl, rfl⟩ h
  rintro s e s' ⟨es', x, hr, rfl, hh⟩ h
  have key : ∀ (fs : List CEv) (y : CSys), x.run cfg b fs = some y → y.sys = s' → y.held = none →
      ∃ (es' : List CEv) (x : CSys), (CSys.init n).run cfg b es' = some x ∧ x.sys = s' ∧ x.held = none := by
    intro fs y h1 h2 h3
    refine ⟨es' ++ fs, y, ?_, h2, h3⟩
    rw [run_append, hr]; exact h1
  by_cases hn : ∃ f, e = .net f
  · obtain ⟨f, rfl⟩ := hn
    have hc : x.sys.crashed = none ∧ x.sys.readDone = false := by
      unfold Sys.step at h
      split at h
      · cases h
      · rename_i hcr
        dsimp only at h
        split at h
        · cases h
        · rename_i hrd
          exact ⟨by simpa using hcr, by simpa using hrd⟩
    refine key [.read f, .put] { x with sys := s', held := none, readsReceived := x.readsReceived + if b then 1 else 0 } ?_ rfl rfl
    have e1 : x.step cfg b (.read f) = some { x with held := some f, readsReceived := x.readsReceived + if b then 1 else 0 } := by
      unfold CSys.step
      rw [hc.1, hc.2, hh]
      rfl
    show (x.step cfg b (.read f)).bind _ = _
    rw [e1]
    show (Option.map _ _).bind _ = _
    rw [h]
    rfl
  · by_cases he : e = .netErr
    · subst he
      refine key [.sys .netErr] { x with sys := s' } ?_ rfl hh
      show (x.step cfg b (.sys .netErr)).bind _ = _
      unfold CSys.step
      dsimp only
      rw [hh, h]
      rfl
    · refine key [.sys e] { x with sys := s', writesSent := x.writesSent + if b && x.counts e then 1 else 0 } ?_ rfl hh
      have e1 : x.step cfg b (.sys e) = some { x with sys := s', writesSent := x.writesSent + if b && x.counts e then 1 else 0 } := by
        cases e with
        | net f => exact absurd ⟨f, rfl⟩ hn
        | netErr => exact absurd rfl he
        | _ => unfold CSys.step; dsimp only; rw [h]; rfl
      show (x.step cfg b (.sys e)).bind _ = _
      rw [e1]
      rfl

theorem writes_run {cfg : Cfg} {n : Nat} {es : List CEv} {x : CSys} (h : (CSys.init n).run cfg true es = some x) : x.writesSent = debt x.sys := by
  refine crun_induction (P := fun x _ => x.writesSent = debt x.sys) h rfl ?_
  intro x e x' es hp h
  rcases cstep_cases h with ⟨f, rfl, _, _, _, rfl⟩ | ⟨f, s, rfl, _, h1, rfl⟩ | ⟨s, rfl, _, h1, rfl⟩ | ⟨a, s, rfl, _, _, h1, rfl⟩
  · exact hp
  · exact hp.trans (debt_step h1).symm
  · exact hp.trans (debt_step h1).symm
  · dsimp only
    rw [debt_step h1, hp, Bool.true_and]

theorem countP_le_one {α : Type} (p : α → Bool) : ∀ (l : List α), (∀ (i j : Nat) (a b : α), l[i]? = some a → l[j]? = some b → p a = true → p b = true → i = j) → l.countP p ≤ 1
  | [], _ => by simp
  | x :: l, h => by
    rw [List.countP_cons]
    cases hx : p x with
    | false =>
      have := countP_le_one p l (fun i j a b h1 h2 h3 h4 => by simpa using h (i + 1) (j + 1) a b h1 h2 h3 h4)
      simpa using this
    | true =>
      have : l.countP p = 0 := by
        rw [List.countP_eq_zero]
        intro a ha hp
        obtain ⟨i, hi⟩ := List.mem_iff_getElem?.1 ha
        have := h 0 (i + 1) x a rfl hi hx hp
        omega
      rw [this]; simp

/-- **C69**, `WritesSent`: the requests accepted (written, or in `writeCh`), the calls that wait for room in `writeCh`, of which there is at most one, and the calls of `Send` that gave up waiting. -/
theorem C69_writes {cfg : Cfg} {n : Nat} {es : List CEv} {x : CSys} (h : (CSys.init n).run cfg true es = some x) :
    x.stats.writesSent = (Spec.handedOver x.sys).length + Spec.handing x.sys + Spec.gaveUp x.sys ∧ Spec.handing x.sys ≤ 1 ∧
      (x.sys.mutex = none → Spec.handing x.sys = 0) := by
  obtain ⟨es', hr⟩ := C69_sound h
  have hl := lock_run (lock_init n) hr
  refine ⟨(writes_run h).trans (debt_eq _), ?_⟩
  have hp : ∀ (t : Nat) (th : Thread), x.sys.threads[t]? = some th → (match th.pc with
      | .push _ => true
      | _ => false) = true → x.sys.mutex = some t := by
    intro t th ht h
    refine (hl.hold t th ht ?_).1
    obtain ⟨call, pc, hl⟩ := th
    cases pc <;> first | rfl | cases h
  refine ⟨countP_le_one _ _ fun i j a b h1 h2 h3 h4 => ?_, fun hm => ?_⟩
  · have := (hp i a h1 h3).symm.trans (hp j b h2 h4)
    simpa using this
  · unfold Spec.handing
    rw [List.countP_eq_zero]
    intro a ha hpa
    obtain ⟨i, hi⟩ := List.mem_iff_getElem?.1 ha
    have := hp i a hi hpa
    rw [hm] at this
    cases this

/-- **C69**, `WritesSent` and what is written: as long as the connection works and no temporary queue is used, what was counted has been written, is in `writeCh`, waits for room there, or was given
up. Missing for the whole claim: see `C69_gave_up_false` and `C69_temp_queue_false`. -/
theorem C69_written_partial {cfg : Cfg} {n : Nat} {es : List CEv} {x : CSys} (h : (CSys.init n).run cfg true es = some x)
    (hl : ∀ f l, x.sys.loop ≠ .fail f l) (hd : x.sys.loop ≠ .done) (ht : ∀ r ∈ Spec.handedOver x.sys, ¬ Spec.TempQueue r.frame) :
    x.stats.writesSent = (Spec.written x.sys).length + x.stats.currentWriteChanSize + Spec.handing x.sys + Spec.gaveUp x.sys := by
  obtain ⟨es', hr⟩ := C69_sound h
  obtain ⟨out, h1, h2⟩ := C21_all hr hl hd
  rw [(C69_writes h).1, h2, h1, List.length_append]
  have : ∀ l : List Req, (∀ r ∈ l, ¬ Spec.TempQueue r.frame) → (l.filterMap fun r => Spec.wire r.frame).length = l.length := by
    intro l hl
    induction l with
    | nil => rfl
    | cons r l ih =>
      have hw : ∃ f, Spec.wire r.frame = some f := by
        unfold Spec.wire
        rw [if_neg (hl r (by simp))]
        split <;> exact ⟨_, rfl⟩
      obtain ⟨f, hw⟩ := hw
      rw [List.filterMap_cons_some (f := fun r : Req => Spec.wire r.frame) hw, List.length_cons, List.length_cons, ih fun r hr => hl r (List.mem_cons_of_mem _ hr)]
  rw [this out fun r hr => ht r (by rw [h1]; exact List.mem_append_left _ hr)]
  rfl

/-- **C69**, `WritesSent` never falls short of what has been written. -/
theorem C69_written_le {cfg : Cfg} {n : Nat} {es : List CEv} {x : CSys} (h : (CSys.init n).run cfg true es = some x) :
    (Spec.written x.sys).length ≤ x.stats.writesSent := by
  obtain ⟨es', hr⟩ := C69_sound h
  obtain ⟨out, rest, h1, h2⟩ := C21_prefix hr
  have : (out.filterMap fun r => Spec.wire r.frame).length ≤ out.length := List.length_filterMap_le _ _
  rw [(C69_writes h).1, h2, h1, List.length_append]
  omega

/-- **C69**, `ReadsReceived`: how often `readLoop` has read a frame or a heart-beat; each of them has been taken by `processLoop`, or is in `readCh`, or waits for room there. -/
theorem C69_reads {cfg : Cfg} {n : Nat} {es : List CEv} {x : CSys} (h : (CSys.init n).run cfg true es = some x) :
    x.stats.readsReceived = Spec.reads es ∧
    x.stats.readsReceived = (Spec.consumed x.sys).length + x.stats.currentReadChanSize + x.held.isSome.toNat := by
  constructor
  · refine crun_induction (P := fun x es => x.readsReceived = Spec.reads es) h rfl ?_
    intro x e x' es hp h
    have e1 : ∀ e : CEv, Spec.reads (es ++ [e]) = Spec.reads es + Spec.reads [e] := fun e => List.countP_append
    rw [e1]
    rcases cstep_cases h with ⟨f, rfl, _, _, _, rfl⟩ | ⟨f, s, rfl, _, h1, rfl⟩ | ⟨s, rfl, _, h1, rfl⟩ | ⟨a, s, rfl, _, _, h1, rfl⟩
    · exact congrArg (· + 1) hp
    all_goals exact hp
  · obtain ⟨es', hr⟩ := C69_sound h
    have hq : readIn x.sys.trace = Spec.consumed x.sys ++ x.sys.readCh := (read_run hr).queue
    have : x.readsReceived = (readIn x.sys.trace).length + x.held.isSome.toNat := by
      refine crun_induction (P := fun x _ => x.readsReceived = (readIn x.sys.trace).length + x.held.isSome.toNat) h rfl ?_
      intro x e x' es hp h
      have no : ∀ {a : Ev} {s : Sys}, (∀ f, a ≠ .net f) → x.sys.step cfg a = some s → readIn s.trace = readIn x.sys.trace := by
        intro a s hn h1
        rcases read_or_not h1 with ⟨f, e, _⟩ | ⟨_, ⟨l, h1, h2, _⟩ | ⟨r, f, h1, _⟩⟩
        · exact absurd e (hn f)
        · rw [h1, readIn_append, h2, List.append_nil]
        · rw [h1, readIn_append]; exact List.append_nil _
      rcases cstep_cases h with ⟨f, rfl, hh, _, _, rfl⟩ | ⟨f, s, rfl, hh, h1, rfl⟩ | ⟨s, rfl, _, h1, rfl⟩ | ⟨a, s, rfl, hn, _, h1, rfl⟩
      · rw [hh] at hp
        show x.readsReceived + 1 = _ + 1
        rw [hp]
        rfl
      · rw [hh] at hp
        rcases read_or_not h1 with ⟨g, e, ht⟩ | ⟨hn, _⟩
        · show x.readsReceived = (readIn s.trace).length + 0
          rw [ht, readIn_append, List.length_append, hp]
          rfl
        · exact absurd rfl (hn f)
      · show x.readsReceived = (readIn s.trace).length + _
        rw [no (by simp) h1]; exact hp
      · show x.readsReceived = (readIn s.trace).length + _
        rw [no hn h1]; exact hp
    show x.readsReceived = _
    rw [this, hq, List.length_append]
    rfl

def Within (cfg : Cfg) (s : Sys) : Prop := s.writeCh.length ≤ cfg.writeCap ∧ s.readCh.length ≤ cfg.readCap

theorem within_same {cfg : Cfg} {s s' : Sys} (hi : Within cfg s) (h1 : s'.writeCh = s.writeCh) (h2 : s'.readCh = s.readCh) : Within cfg s' := by
  unfold Within; rw [h1, h2]; exact hi

theorem within_more {cfg : Cfg} {s s' : Sys} {r : Req} (hi : Within cfg s) (hc : s.writeCh.length < cfg.writeCap) (h1 : s'.writeCh = s.writeCh ++ [r]) (h2 : s'.readCh = s.readCh) :
    Within cfg s' := by
  unfold Within
  rw [h1, h2, List.length_append, List.length_singleton]
  exact ⟨by omega, hi.2⟩

theorem within_less {cfg : Cfg} {s s' : Sys} {x : Option Frame} {rest : List (Option Frame)} (hi : Within cfg s) (hr : s.readCh = x :: rest) (h1 : s'.writeCh = s.writeCh) (h2 : s'.readCh = rest) :
    Within cfg s' := by
  obtain ⟨ha, hb⟩ := hi
  rw [hr, List.length_cons] at hb
  unfold Within
  rw [h1, h2]
  exact ⟨ha, by omega⟩

theorem within_frameDone {cfg : Cfg} {s : Sys} (hi : Within cfg s) (t : Nat) (c : Call) (r : Res) : Within cfg (s.frameDone t c r) := by
  obtain ⟨pc, hcore, _⟩ := frameDone_spec s t c r
  exact within_same hi hcore.writeCh hcore.readCh

theorem within_handOver {cfg : Cfg} {s s1 : Sys} {n : Nat} {f : Frame} {b : Bool} (hi : Within cfg s) (h : s.handOver n f b = some s1) : Within cfg s1 := by
  cases handOver_cases h with
  | frame => exact within_frameDone hi _ _ _
  | _ => exact within_same hi rfl rfl

theorem within_take {cfg : Cfg} {s : Sys} {r : Req} {rest : List Req} (hi : Within cfg s) (hw : s.writeCh = r :: rest) : Within cfg (s.takeReq r rest).1 := by
  have sp := takeReq_spec s r rest
  obtain ⟨ha, hb⟩ := hi
  rw [hw, List.length_cons] at ha
  unfold Within
  rw [sp.2.2.1, sp.2.2.2.2.1]
  exact ⟨by omega, hb⟩

theorem within_step {cfg : Cfg} {s s' : Sys} (hi : Within cfg s) (h : Step cfg s s') : Within cfg s' := by
  cases h with
  | frameClosed => exact within_frameDone (s := s.closeNet) hi _ _ _
  | pushWait _ _ _ hcap => exact within_more hi hcap rfl rfl
  | pushRet _ _ _ hcap => exact within_more hi hcap rfl rfl
  | @pushSub t th r n _ _ _ _ _ _ hcap =>
    have sp := handOut_spec { s with writeCh := s.writeCh ++ [r], trace := s.trace ++ [.accepted t r] } n
    exact within_more hi hcap sp.1.writeCh sp.1.readCh
  | pushFrameWait _ _ _ hcap => exact within_more hi hcap rfl rfl
  | @pushFrameRet t th r _ _ _ hcap =>
    exact within_frameDone (s := Sys.unlock { s with writeCh := s.writeCh ++ [r], trace := s.trace ++ [.accepted t r] }) (within_more hi hcap rfl rfl) _ _ _
  | waitClosed => exact within_frameDone hi _ _ _
  | frameTimeout => exact within_frameDone hi _ _ _
  | unsub _ _ _ _ h => exact within_same hi (unsub_spec h).1.writeCh (unsub_spec h).1.readCh
  | helper _ _ _ h => exact within_same hi (helper_spec h).1.writeCh (helper_spec h).1.readCh
  | net _ hcap =>
    refine ⟨hi.1, ?_⟩
    show (s.readCh ++ [_]).length ≤ _
    rw [List.length_append, List.length_singleton]
    omega
  | readSkip _ hr => exact within_less hi hr rfl rfl
  | readReceipt _ hr => exact within_less hi hr rfl rfl
  | readMissing _ hr => exact within_less hi hr rfl rfl
  | readErr _ hr => exact within_less hi hr rfl rfl
  | readMessage _ hr => exact within_less hi hr rfl rfl
  | takeQuiet _ hw => exact within_take hi hw
  | takeSent _ hw => exact within_same (within_take hi hw) rfl rfl
  | takeFail _ hw => exact within_same (within_take hi hw) rfl rfl
  | @giveReceipt f id n b s1 hl hc h1 =>
    have sp := closeChan_spec { s1 with channels := s1.channels.del id, loop := .select } n
    exact within_same (within_handOver hi h1) sp.2.2.1 sp.2.2.2.2.1
  | giveMessage hl hc h1 => exact within_same (within_handOver hi h1) rfl rfl
  | @giveErr f n l b s1 hl hc h1 =>
    have sp := closeChan_spec { s1 with loop := .errs f l } n
    exact within_same (within_handOver hi h1) sp.2.2.1 sp.2.2.2.2.1
  | giveFail hl hc h1 => exact within_same (within_handOver hi h1) rfl rfl
  | sub h => exact within_same hi (subStep_spec h).1.writeCh (subStep_spec h).1.readCh
  | _ => exact within_same hi rfl rfl

theorem within_run {cfg : Cfg} {n : Nat} {s : Sys} {es : List Ev} (h : (Sys.init n).run cfg es = some s) : Within cfg s :=
  run_induction (P := Within cfg) (fun _ _ _ hp h => within_step hp (step_cases h).2) es _ _ ⟨Nat.zero_le _, Nat.zero_le _⟩ h

/-- **C69**, the sizes are at most the capacities chosen with `ConnOpt.ReadChannelCapacity` and `ConnOpt.WriteChannelCapacity`, and the counters stay at zero without `ConnOpt.WithStats`. -/
theorem C69_bounds {cfg : Cfg} {b : Bool} {n : Nat} {es : List CEv} {x : CSys} (h : (CSys.init n).run cfg b es = some x) :
    x.stats.currentWriteChanSize ≤ cfg.writeCap ∧ x.stats.currentReadChanSize ≤ cfg.readCap ∧
    (b = false → x.stats.writesSent = 0 ∧ x.stats.readsReceived = 0) := by
  obtain ⟨es', hr⟩ := C69_sound h
  have hw := within_run hr
  refine ⟨hw.1, hw.2, ?_⟩
  rintro rfl
  refine crun_induction (P := fun x _ => x.writesSent = 0 ∧ x.readsReceived = 0) h ⟨rfl, rfl⟩ ?_
  intro x e x' es hp h
  rcases cstep_cases h with ⟨f, rfl, _, _, _, rfl⟩ | ⟨f, s, rfl, _, h1, rfl⟩ | ⟨s, rfl, _, h1, rfl⟩ | ⟨a, s, rfl, _, _, h1, rfl⟩
  · exact hp
  · exact hp
  · exact hp
  · exact hp

/-! ## Examples -/

namespace Ex

/-- Room for one request. -/
def tight : Cfg := { cfg with writeCap := 1 }

/-- Two callers send; the second finds no room in `writeCh` and gives up; a heart-beat and a message come in. -/
def counted : List CEv :=
  [.sys (.call (.send b!"/q" [] b!"x" [])), .sys (.thread 0), .sys (.thread 0), .sys (.call (.send b!"/q" [] b!"y" [])), .sys (.thread 1),
   .read none, .put, .read (some (Frame.new Cmd.message [(Hdr.subscription, b!"1")])), .sys (.timeout 1), .sys (.loopWrite true []), .sys (.loopRead []), .put]

def endCounted : CSys := ((CSys.init 0).run tight true counted).getD (CSys.init 0)
theorem counted_run : (CSys.init 0).run tight true counted = some endCounted := by decide +kernel

/-- The same up to the time when the second caller waits. -/
def endWaiting : CSys := ((CSys.init 0).run tight true (counted.take 8)).getD (CSys.init 0)
theorem waiting_run : (CSys.init 0).run tight true (counted.take 8) = some endWaiting := by decide +kernel

/-- A subscription to a temporary queue. -/
def temp : List CEv :=
  [.sys (.call (.subscribe b!"/temp" .auto [.header Hdr.replyTo b!"/temp"])), .sys (.thread 0), .sys (.thread 0), .sys (.loopWrite true [])]

def endTemp : CSys := ((CSys.init 0).run cfg true temp).getD (CSys.init 0)
theorem temp_run : (CSys.init 0).run cfg true temp = some endTemp := by decide +kernel

end Ex

/-- **C69** is false as worded: a `Send` that gives up is counted, though nothing of it is ever written, and no one holds a request back. -/
theorem C69_gave_up_false : ∃ (cfg : Cfg) (es : List CEv) (x : CSys), (CSys.init 0).run cfg true es = some x ∧ x.sys.loop = .select ∧ x.sys.mutex = none ∧
    x.stats.currentWriteChanSize = 0 ∧ x.stats.writesSent = 2 ∧ (Spec.written x.sys).length = 1 :=
  ⟨Ex.tight, Ex.counted, Ex.endCounted, Ex.counted_run, by decide +kernel, by decide +kernel, by decide +kernel, by decide +kernel, by decide +kernel⟩

/-- **C69** is false as worded: the subscription to a temporary queue is counted, and is not written. -/
theorem C69_temp_queue_false : ∃ (cfg : Cfg) (es : List CEv) (x : CSys), (CSys.init 0).run cfg true es = some x ∧ x.sys.loop = .select ∧ x.sys.mutex = none ∧
    x.stats.currentWriteChanSize = 0 ∧ x.stats.writesSent = 1 ∧ Spec.gaveUp x.sys = 0 ∧ (Spec.written x.sys).length = 0 :=
  ⟨Ex.cfg, Ex.temp, Ex.endTemp, Ex.temp_run, by decide +kernel, by decide +kernel, by decide +kernel, by decide +kernel, by decide +kernel, by decide +kernel⟩

/-- **C69** is false as worded: `ReadsReceived` counts heart-beats too. -/
theorem C69_beats_false : ∃ (cfg : Cfg) (es : List CEv) (x : CSys), (CSys.init 0).run cfg true es = some x ∧ x.stats.readsReceived = 2 ∧ x.stats.currentReadChanSize = 1 ∧ x.held = none ∧
    Spec.consumed x.sys = [none] :=
  ⟨Ex.tight, Ex.counted, Ex.endCounted, Ex.counted_run, by decide +kernel, by decide +kernel, by decide +kernel, by decide +kernel⟩

example : Ex.endWaiting.stats = ⟨1, 1, 2, 2⟩ := by decide +kernel
example : Spec.handing Ex.endWaiting.sys = 1 ∧ Spec.gaveUp Ex.endWaiting.sys = 0 ∧ (Spec.handedOver Ex.endWaiting.sys).length = 1 ∧ Ex.endWaiting.held.isSome = true := by decide +kernel
example : Ex.endCounted.stats = ⟨0, 1, 2, 2⟩ := by decide +kernel
example : Spec.handing Ex.endCounted.sys = 0 ∧ Spec.gaveUp Ex.endCounted.sys = 1 ∧ (Spec.handedOver Ex.endCounted.sys).length = 1 ∧ Ex.endCounted.sys.mutex = none := by decide +kernel
example : Ex.endWaiting.sys.loop = .select ∧ Ex.endCounted.sys.loop = .select := by decide +kernel
example : ∀ r ∈ Spec.handedOver Ex.endCounted.sys, ¬ Spec.TempQueue r.frame := by
  have : ∀ r ∈ Spec.handedOver Ex.endCounted.sys, r.frame.command = Cmd.send := by decide +kernel
  intro r hr ht
  have h := ht.1
  rw [this r hr] at h
  exact absurd h (by decide)
example : (((CSys.init 0).run Ex.tight false Ex.counted).map CSys.stats) = some ⟨0, 1, 0, 0⟩ := by decide +kernel

end Stomp.Client
