import Verif.Proofs.Client.Told
import Verif.Props.Client.Receipts
/-! # Who waits, and what has not come -/
namespace Stomp.Client
open Stomp

/-! ## `Subscribe` waits for no answer -/

def NewWait (s s' : Sys) : Prop :=
  ∀ (t : Nat) (th' : Thread) (n : Nat), s'.threads[t]? = some th' → th'.pc = .wait n →
    (∃ th, s.threads[t]? = some th ∧ th.pc = .wait n ∧ th.call = th'.call) ∨ ∀ d a o, th'.call ≠ .subscribe d a o

theorem nw_same {s s' : Sys} (h : s'.threads = s.threads) : NewWait s s' := by
  intro t th' n ht hp
  rw [h] at ht
  exact .inl ⟨th', ht, hp, rfl⟩

theorem nw_modify {s s' : Sys} {t : Nat} {th : Thread} {g : Thread → Thread} (ht : s.threads[t]? = some th) (h : s'.threads = s.threads.modify t g)
    (hg : (g th).pc.past = true ∨ (∀ n, (g th).pc ≠ .wait n) ∨ (∀ d a o, (g th).call ≠ .subscribe d a o)) : NewWait s s' := by
  intro u th' n hu hp
  rw [h, List.getElem?_modify] at hu
  cases hx : s.threads[u]? with
  | none => rw [hx] at hu; cases hu
  | some x =>
    rw [hx] at hu
    simp only [Option.map_eq_map, Option.map_some, Option.some.injEq] at hu
    by_cases e : t = u
    · subst e
      rw [hx] at ht; cases ht
      rw [if_pos rfl] at hu
      subst hu
      rcases hg with hg | hg | hg
      · rw [hp] at hg; cases hg
      · exact absurd hp (hg n)
      · exact .inr hg
    · rw [if_neg e] at hu
      subst hu
      exact .inl ⟨x, rfl, hp, rfl⟩

theorem nw_helper {s s' : Sys} {t : Nat} {g : Thread → Thread} (h : s'.threads = s.threads.modify t g) (hg : ∀ b, (g b).call = b.call ∧ (g b).pc = b.pc) : NewWait s s' := by
  intro u th' n hu hp
  rw [h, List.getElem?_modify] at hu
  cases hx : s.threads[u]? with
  | none => rw [hx] at hu; cases hu
  | some x =>
    rw [hx] at hu
    simp only [Option.map_eq_map, Option.map_some, Option.some.injEq] at hu
    by_cases e : t = u
    · rw [if_pos e] at hu
      subst hu
      exact .inl ⟨x, rfl, by rw [← (hg x).2]; exact hp, (hg x).1.symm⟩
    · rw [if_neg e] at hu
      subst hu
      exact .inl ⟨x, rfl, hp, rfl⟩

theorem nw_give {s s1 s' : Sys} {n : Nat} {f : Frame} {b : Bool} (h : s.handOver n f b = some s1) (h1 : s'.threads = s1.threads) : NewWait s s' := by
  obtain ⟨_, hth | ⟨t, th, pc, ht, _, hp, hth⟩⟩ := handOver_past h
  · exact nw_same (h1.trans hth)
  · exact nw_modify ht (h1.trans hth) (.inl hp)

theorem newWait_step {cfg : Cfg} {s s' : Sys} (h : Step cfg s s') : NewWait s s' := by
  cases h with
  | call c hl =>
    intro t th' n ht hp
    rw [List.getElem?_append] at ht
    split at ht
    · exact .inl ⟨th', ht, hp, rfl⟩
    · rw [List.getElem?_singleton] at ht
      split at ht
      · simp only [Option.some.injEq] at ht; subst ht; cases hp
      · cases ht
  | early ht => exact nw_modify ht rfl (.inl rfl)
  | acquire ht => exact nw_modify ht rfl (.inr (.inl (by simp)))
  | acquireBare ht => exact nw_modify ht rfl (.inr (.inl (by simp)))
  | @frameClosed t th ht =>
    obtain ⟨pc, hp, h1, h2⟩ := frameDone_past s.closeNet t th.call .closedUnexpectedly
    exact nw_modify ht h1 (.inl hp)
  | subscribe ht => exact nw_modify ht rfl (.inr (.inl (by simp)))
  | unsubOption ht => exact nw_modify ht rfl (.inl rfl)
  | unsubGo ht => exact nw_modify ht rfl (.inr (.inl (by simp)))
  | unsubDone ht => exact nw_modify ht rfl (.inl rfl)
  | mustGo ht => exact nw_modify ht rfl (.inl rfl)
  | pushWait ht hpc hw hcap hr hcall => exact nw_modify ht rfl (.inr (.inr (by rcases hcall with ⟨_, _, _, _, e⟩ | e <;> simp [e])))
  | pushRet ht hpc => exact nw_modify ht rfl (.inl rfl)
  | @pushSub t th r n d a o ht hpc =>
    have := handOut_spec { s with writeCh := s.writeCh ++ [r], trace := s.trace ++ [.accepted t r] } n
    refine nw_modify ht (g := fun th => { th with pc := .ret .ok }) ?_ (.inl rfl)
    simp only [Sys.ret, Sys.goto, Sys.log, Sys.unlock, this.2.2.1]
  | pushFrameWait ht hpc hw hcap hr hcall => exact nw_modify ht rfl (.inr (.inr (by rcases hcall with ⟨_, e⟩ | ⟨_, _, e⟩ <;> simp [e])))
  | @pushFrameRet t th r ht hpc =>
    obtain ⟨pc, hp, h1, h2⟩ := frameDone_past
      (Sys.unlock { s with writeCh := s.writeCh ++ [r], trace := s.trace ++ [.accepted t r] }) t th.call .ok
    exact nw_modify ht h1 (.inl hp)
  | @waitClosed t th n ht =>
    obtain ⟨pc, hp, h1, h2⟩ := frameDone_past s t th.call .closedUnexpectedly
    exact nw_modify ht h1 (.inl hp)
  | unsub ht hcall hb hpc h =>
    obtain ⟨hcore, ⟨h1, h2, _⟩ | ⟨_, pc, hp, h1, hpast, _⟩⟩ := unsub_spec h
    · exact nw_same h1
    · exact nw_modify ht h1 (.inl hpast)
  | sendTimeout ht => exact nw_modify ht rfl (.inl rfl)
  | receiptTimeout ht => exact nw_modify ht rfl (.inl rfl)
  | disconnectTimeout ht => exact nw_modify ht rfl (.inl rfl)
  | @frameTimeout t th n ht =>
    obtain ⟨pc, hp, h1, h2⟩ := frameDone_past s t th.call .closedUnexpectedly
    exact nw_modify ht h1 (.inl hp)
  | selectTimeout ht => exact nw_modify ht rfl (.inl rfl)
  | helper ht hcall hb h =>
    obtain ⟨hcore, h2, ⟨h1, _⟩ | ⟨_, hp, h1⟩⟩ := helper_spec h
    · exact nw_same h1
    · exact nw_helper h1 (fun _ => ⟨rfl, rfl⟩)
  | @takeQuiet r rest => exact nw_same (takeReq_spec s r rest).2.2.2.2.2.2.2.1
  | @takeSent r rest => exact nw_same (takeReq_spec s r rest).2.2.2.2.2.2.2.1
  | @takeFail r rest => exact nw_same (takeReq_spec s r rest).2.2.2.2.2.2.2.1
  | giveReceipt hl hc h1 => exact nw_give h1 (closeChan_spec _ _).2.2.2.2.2.2.2.1
  | giveMessage hl hc h1 => exact nw_give h1 rfl
  | giveErr hl hc h1 => exact nw_give h1 (closeChan_spec _ _).2.2.2.2.2.2.2.1
  | giveFail hl hc h1 => exact nw_give h1 rfl
  | sub h => exact nw_same (subStep_spec h).2.2
  | _ => exact nw_same rfl

/-- `Subscribe` does not wait for an answer. -/
theorem no_sub_wait {cfg : Cfg} {n : Nat} {s : Sys} {es : List Ev} (h : (Sys.init n).run cfg es = some s) :
    ∀ (t : Nat) (th : Thread) (m : Nat), s.threads[t]? = some th → th.pc = .wait m → ∀ d a o, th.call ≠ .subscribe d a o := by
  refine run_induction (P := fun s => ∀ (t : Nat) (th : Thread) (m : Nat), s.threads[t]? = some th → th.pc = .wait m → ∀ d a o, th.call ≠ .subscribe d a o)
    (fun s e s' hp h => ?_) es _ _ (by intro t th m ht; simp [Sys.init] at ht) h
  intro t th' m ht hpc
  rcases newWait_step (step_cases h).2 t th' m ht hpc with ⟨th, h1, h2, h3⟩ | h1
  · rw [← h3]; exact hp t th m h1 h2
  · exact h1

/-! ## After an ERROR frame `processLoop` ends -/

def TookEff (s s' : Sys) : Prop :=
  tookIn s'.trace = tookIn s.trace ∨
  ∃ x, tookIn s'.trace = tookIn s.trace ++ [x] ∧ ∀ g, x = some g → g.command = Cmd.error → s'.loop.ended = true

theorem tk_quiet {s s' : Sys} (l : List Obs) (h : s'.trace = s.trace ++ l) (hl : tookIn l = []) : TookEff s s' := by
  left; rw [h, tookIn_append, hl, List.append_nil]

theorem tk_same {s s' : Sys} (h : s'.trace = s.trace) : TookEff s s' := .inl (by rw [h])

theorem tk_took {s s' : Sys} {x : Option Frame} (h : s'.trace = s.trace ++ [.took x]) (hx : ∀ g, x = some g → g.command = Cmd.error → s'.loop.ended = true) : TookEff s s' :=
  .inr ⟨x, by rw [h, tookIn_append]; rfl, hx⟩

theorem tk_frameDone (s : Sys) (t : Nat) (c : Call) (r : Res) : tookIn (s.frameDone t c r).trace = tookIn s.trace := by
  obtain ⟨pc, hcore, _, _, _, ⟨_, _, htr⟩ | ⟨_, _, htr⟩⟩ := frameDone_spec s t c r
  · rw [htr, tookIn_append]; exact List.append_nil _
  · rw [htr]

theorem tk_handOver {s s1 : Sys} {n : Nat} {f : Frame} {b : Bool} (h : s.handOver n f b = some s1) : tookIn s1.trace = tookIn s.trace := by
  cases handOver_cases h with
  | frame => exact tk_frameDone _ _ _ _
  | send => exact (tookIn_append _ _).trans (List.append_nil _)
  | discOk => exact (tookIn_append _ _).trans (List.append_nil _)
  | discErr => exact (tookIn_append _ _).trans (List.append_nil _)
  | sub => rfl

theorem tookEff_step {cfg : Cfg} {s s' : Sys} (h : Step cfg s s') : TookEff s s' := by
  cases h with
  | early => exact tk_quiet _ rfl rfl
  | frameClosed => exact .inl (tk_frameDone _ _ _ _)
  | unsubOption => exact tk_quiet _ rfl rfl
  | unsubDone => exact tk_quiet _ rfl rfl
  | mustGo => exact tk_quiet _ rfl rfl
  | @pushWait t th r => exact tk_quiet [.accepted t r] rfl rfl
  | @pushRet t th r => exact tk_quiet [.accepted t r, .ret t .ok] (List.append_assoc _ [Obs.accepted t r] _) rfl
  | @pushSub t th r n =>
    have sp := handOut_spec { s with writeCh := s.writeCh ++ [r], trace := s.trace ++ [.accepted t r] } n
    exact tk_quiet [.accepted t r, .ret t .ok] ((congrArg (· ++ [Obs.ret t .ok]) sp.2.1).trans (List.append_assoc _ [Obs.accepted t r] _)) rfl
  | @pushFrameWait t th r => exact tk_quiet [.accepted t r] rfl rfl
  | @pushFrameRet t th r =>
    exact .inl ((tk_frameDone (Sys.unlock { s with writeCh := s.writeCh ++ [r], trace := s.trace ++ [.accepted t r] }) _ _ _).trans
      ((tookIn_append _ [.accepted t r]).trans (List.append_nil _)))
  | waitClosed => exact .inl (tk_frameDone _ _ _ _)
  | frameTimeout => exact .inl (tk_frameDone _ _ _ _)
  | unsub ht hcall hb hpc h =>
    obtain ⟨hcore, ⟨h1, h2, _⟩ | ⟨_, pc, hp, h1, hpast, ⟨_, h2⟩ | ⟨r, _, h2⟩⟩⟩ := unsub_spec h
    · exact tk_same h2
    · exact tk_same h2
    · exact tk_quiet _ h2 rfl
  | sendTimeout => exact tk_quiet _ rfl rfl
  | receiptTimeout => exact tk_quiet _ rfl rfl
  | disconnectTimeout => exact tk_quiet _ rfl rfl
  | helper ht hcall hb h =>
    obtain ⟨hcore, h2, _⟩ := helper_spec h
    exact tk_same h2
  | net => exact tk_quiet _ rfl rfl
  | readSkip hl hr hs => exact tk_took rfl (fun g e hg => absurd hg (hs g e).1)
  | readReceipt hl hr hf => exact tk_took rfl (fun g e hg => by cases e; rw [hf] at hg; exact absurd hg (by decide))
  | readMissing hl hr hf => exact tk_took rfl (fun g e hg => rfl)
  | readErr hl hr => exact tk_took rfl (fun g e hg => rfl)
  | readMessage hl hr hf => exact tk_took rfl (fun g e hg => by cases e; rw [hf] at hg; exact absurd hg (by decide))
  | @takeQuiet r rest => exact tk_quiet _ (takeReq_spec s r rest).2.2.2.2.2.2.2.2.2.1 rfl
  | @takeSent r rest f =>
    have sp := takeReq_spec s r rest
    refine tk_quiet (.taken r :: [.sent f]) ?_ rfl
    show (s.takeReq r rest).1.trace ++ [.sent f] = _
    rw [sp.2.2.2.2.2.2.2.2.2.1, List.append_assoc]; rfl
  | @takeFail r rest f =>
    have sp := takeReq_spec s r rest
    refine tk_quiet (.taken r :: [.failed f]) ?_ rfl
    show (s.takeReq r rest).1.trace ++ [.failed f] = _
    rw [sp.2.2.2.2.2.2.2.2.2.1, List.append_assoc]; rfl
  | beat => exact tk_quiet [.beat] rfl rfl
  | @giveReceipt f id n b s1 hl hc h1 =>
    have sp := closeChan_spec { s1 with channels := s1.channels.del id, loop := .select } n
    have h2 := tk_handOver h1
    exact .inl ((congrArg tookIn sp.2.2.2.2.2.2.2.2.2.1).trans h2)
  | giveMessage hl hc h1 => have h2 := tk_handOver h1; exact .inl h2
  | @giveErr f n l b s1 hl hc h1 =>
    have sp := closeChan_spec { s1 with loop := .errs f l } n
    have h2 := tk_handOver h1
    exact .inl ((congrArg tookIn sp.2.2.2.2.2.2.2.2.2.1).trans h2)
  | giveFail hl hc h1 => have h2 := tk_handOver h1; exact .inl h2
  | sub h =>
    obtain ⟨hcore, h2, _⟩ := subStep_spec h
    exact tk_same h2
  | _ => exact tk_same rfl

/-- When `processLoop` has taken an ERROR frame, it is about to return. -/
theorem error_ended {cfg : Cfg} {n : Nat} {s : Sys} {es : List Ev} (h : (Sys.init n).run cfg es = some s) :
    ∀ g, some g ∈ tookIn s.trace → g.command = Cmd.error → s.loop.ended = true := by
  refine run_induction (P := fun s => ∀ g, some g ∈ tookIn s.trace → g.command = Cmd.error → s.loop.ended = true)
    (fun s e s' hp h => ?_) es _ _ (by intro g hg; simp [Sys.init, tookIn] at hg) h
  intro g hg hc
  have hst := (step_cases h).2
  rcases tookEff_step hst with h1 | ⟨x, h1, h2⟩
  · rw [h1] at hg; exact ended_step hst (hp g hg hc)
  · rw [h1] at hg
    rcases List.mem_append.1 hg with hg | hg
    · exact ended_step hst (hp g hg hc)
    · rw [List.mem_singleton] at hg; exact h2 g hg.symm hc

/-! ## Whoever is registered has got no receipt -/

/-- The request registered under `k` was taken, and no receipt with that id since. -/
def Unmet (s : Sys) : Prop :=
  ∀ k n, s.channels.get? k = some n → (∀ f m, s.loop ≠ .receipt f k m) →
    ∃ a r b, s.trace = a ++ .taken r :: b ∧ r.chan = some n ∧ Spec.Registers r.frame k ∧ ∀ g, Spec.ReceiptFor g k → .took (some g) ∉ b

theorem unmet_ext {s s' : Sys} (hi : Unmet s) {l : List Obs} (h3 : s'.trace = s.trace ++ l) {k : Bytes} {n : Nat} (hk : s.channels.get? k = some n) (hl : ∀ f m, s.loop ≠ .receipt f k m)
    (hn : ∀ g, Spec.ReceiptFor g k → .took (some g) ∉ l) :
    ∃ a r b, s'.trace = a ++ .taken r :: b ∧ r.chan = some n ∧ Spec.Registers r.frame k ∧ ∀ g, Spec.ReceiptFor g k → .took (some g) ∉ b := by
  obtain ⟨a, r, b, h1, h2, h4, h5⟩ := hi k n hk hl
  refine ⟨a, r, b ++ l, by rw [h3, h1]; simp, h2, h4, fun g hg hm => ?_⟩
  rcases List.mem_append.1 hm with hm | hm
  · exact h5 g hg hm
  · exact hn g hg hm

theorem neutral_no_receipt {l : List Obs} (h : Neutral l) {k : Bytes} {g : Frame} (hg : Spec.ReceiptFor g k) : .took (some g) ∉ l := by
  intro hm
  have := h _ hm 0 k ⟨true, []⟩
  simp only [Spec.watch] at this
  rw [if_neg (by rw [hg.1]; decide), if_pos ⟨hg.1, hg.2⟩] at this
  cases this

theorem unmet_step {cfg : Cfg} {s s' : Sys} (hi : Unmet s) (h : Step cfg s s') : Unmet s' := by
  cases loopEff_step h with
  | quiet h1 h2 h3 h4 =>
    intro k n hk hl
    rw [h2] at hk; rw [h1] at hl
    exact unmet_ext hi h3 hk hl (fun g hg => neutral_no_receipt h4 hg)
  | stop h0 h1 h2 h3 h4 =>
    intro k n hk hl
    rw [h2] at hk
    refine unmet_ext hi h3 hk ?_ (fun g hg => neutral_no_receipt h4 hg)
    intro f m e
    rcases h0 with h0 | h0 | ⟨_, _, h0⟩
    · rw [e] at h0; cases h0
    · rw [e] at h0; cases h0
    · rw [e] at h0; cases h0
  | @skip x h0 h1 h2 h3 h4 =>
    intro k n hk hl
    rw [h2] at hk; rw [h1] at hl
    refine unmet_ext hi h3 hk hl ?_
    intro g hg hm
    simp only [List.mem_singleton, Obs.took.injEq] at hm
    obtain ⟨id, e1, e2⟩ := (h4 g hm.symm).2.1 hg.1
    rw [hg.2] at e1
    cases e1
    rw [hk] at e2; cases e2
  | @receipt f id m h0 h1 h2 h3 hf hid hn =>
    intro k n hk hl
    rw [h2] at hk
    refine unmet_ext hi h3 hk (by rw [h0]; simp) ?_
    intro g hg hm
    simp only [List.mem_singleton, Obs.took.injEq, Option.some.injEq] at hm
    subst hm
    have := hg.2
    rw [hid] at this
    cases this
    exact hl _ _ h1
  | @message f id m h0 h1 h2 h3 hf =>
    intro k n hk hl
    rw [h2] at hk
    refine unmet_ext hi h3 hk (by rw [h0]; simp) ?_
    intro g hg hm
    simp only [List.mem_singleton, Obs.took.injEq, Option.some.injEq] at hm
    subst hm
    have := hg.1
    rw [hf] at this
    exact absurd this (by decide)
  | @take r rest l h0 h1 hw h2 h3 h4 =>
    intro k n hk hl
    rw [h2] at hk
    by_cases he : EndsTemp r.frame k
    · rw [hw_off he] at hk; cases hk
    rw [hw_get he] at hk
    split at hk
    · rename_i hr
      exact ⟨s.trace, r, l, h3, hk, hr.1, fun g hg => neutral_no_receipt h4 hg⟩
    · refine unmet_ext hi h3 hk (by rw [h0]; simp) ?_
      intro g hg hm
      rcases List.mem_cons.1 hm with hm | hm
      · cases hm
      · exact neutral_no_receipt h4 hg hm
  | @gaveReceipt f id m l h0 h1 h2 h3 h4 =>
    intro k n hk hl
    rw [h2, AMap.get?_del] at hk
    split at hk
    · cases hk
    · rename_i hne
      refine unmet_ext hi h3 hk ?_ (fun g hg => neutral_no_receipt h4 hg)
      intro f' m' e
      rw [h0] at e
      injection e with _ e _
      first | exact hne e | exact hne e.symm
  | gaveMessage _ _ h0 h1 h2 h3 h4 =>
    intro k n hk hl
    rw [h2] at hk
    exact unmet_ext hi h3 hk (by rw [h0]; simp) (fun g hg => neutral_no_receipt h4 hg)

theorem unmet_run {cfg : Cfg} {n : Nat} {s : Sys} {es : List Ev} (h : (Sys.init n).run cfg es = some s) : Unmet s :=
  run_induction (P := Unmet) (fun s e s' hp h => unmet_step hp (step_cases h).2) es _ _ (by intro k n hk; simp [Sys.init, AMap.get?] at hk) h

/-- Requests with the same channel are taken once. -/
theorem taken_twice {s : Sys} (ha : AllInv s) {a b : List Obs} {r r' : Req} {n : Nat} (he : s.trace = a ++ .taken r :: b) (hr : .taken r' ∈ a) (hn : r.chan = some n) (hn' : r'.chan = some n) : False := by
  have hq := ha.order.queue
  have hnd := ha.origin.nodup
  have hch := ha.origin.chan
  rw [handedIn_acc] at hq
  have e0 : takenIn s.trace = takenIn a ++ (r :: takenIn b) := by rw [he]; simp [takenIn]
  rw [e0, List.append_assoc] at hq
  obtain ⟨l1, l2, e, e1, e2⟩ := List.map_eq_append_iff.1 hq
  obtain ⟨⟨t, q⟩, l3, e3, e4, e5⟩ := List.map_eq_cons_iff.1 e2
  rw [e, e3] at hnd hch
  have h1 : r' ∈ takenIn a := List.mem_filterMap.2 ⟨_, hr, rfl⟩
  rw [← e1] at h1
  obtain ⟨⟨t', q'⟩, ht', rfl⟩ := List.mem_map.1 h1
  simp only at e4 hn hn'
  subst e4
  have := hch t' t q' q n (by simp [ht']) (by simp) hn' hn
  subst this
  rw [List.map_append, List.nodup_append] at hnd
  exact hnd.2.2 t' (List.mem_map.2 ⟨_, ht', rfl⟩) t' (by simp) rfl

end Stomp.Client
