import Verif.Proofs.Client.UnsubInv
import Verif.Proofs.Client.Origin
import Verif.Spec.Refused
/-! # Calls with options that fail -/
namespace Stomp.Client
open Stomp

theorem applySendOpts_none {os : List SendOpt} {last : Nat} {f : Frame} (hf : f.command = Cmd.send) :
    applySendOpts last f os = none ↔ .fail ∈ os := by
  induction os generalizing last f with
  | nil => simp [applySendOpts]
  | cons o os ih =>
    cases o with
    | nilOpt => simp [applySendOpts, applySendOpt, ih hf]
    | receipt =>
      simp only [applySendOpts, applySendOpt, hf, ne_eq, not_true, if_false]
      rw [ih rfl]; simp
    | noContentLength =>
      simp only [applySendOpts, applySendOpt, hf, ne_eq, not_true, if_false]
      rw [ih rfl]; simp
    | header k v =>
      simp only [applySendOpts, applySendOpt, hf, ne_eq, not_true, if_false]
      rw [ih rfl]; simp
    | fail => simp [applySendOpts, applySendOpt]

theorem createSendFrame_none {last : Nat} {d c b : Bytes} {o : List SendOpt} : createSendFrame last d c b o = none ↔ .fail ∈ o := by
  unfold createSendFrame
  apply applySendOpts_none
  split <;> rfl

theorem applySubOpts_none {os : List SubOpt} {f : Frame} (hf : f.command = Cmd.subscribe) : applySubOpts f os = none ↔ .fail ∈ os := by
  induction os generalizing f with
  | nil => simp [applySubOpts]
  | cons o os ih =>
    cases o with
    | nilOpt => simp [applySubOpts, applySubOpt, ih hf]
    | id i =>
      simp only [applySubOpts, applySubOpt, hf, ne_eq, not_true, if_false]
      rw [ih rfl]; simp
    | header k v =>
      simp only [applySubOpts, applySubOpt, hf, ne_eq, not_true, false_and, if_false]
      rw [ih rfl]; simp
    | fail => simp [applySubOpts, applySubOpt]

theorem createSubscribeFrame_none {last : Nat} {d : Bytes} {a : AckMode} {o : List SubOpt} : createSubscribeFrame last d a o = none ↔ .fail ∈ o := by
  unfold createSubscribeFrame
  rw [← applySubOpts_none (f := Frame.new Cmd.subscribe [(Hdr.destination, d), (Hdr.ack, a.str)]) rfl]
  cases h : applySubOpts (Frame.new Cmd.subscribe [(Hdr.destination, d), (Hdr.ack, a.str)]) o with
  | none => simp only [h]
  | some f =>
    simp only [h, reduceCtorEq, iff_false]
    intro h
    split at h <;> cases h

theorem applyUnsubOpts_none {os : List SubOpt} {f : Frame} (hf : f.command = Cmd.unsubscribe) :
    applyUnsubOpts f os = none ↔ (.fail ∈ os ∨ .nilOpt ∈ os ∨ ∃ id, .id id ∈ os) := by
  have hne : Cmd.unsubscribe ≠ Cmd.subscribe := by decide
  induction os generalizing f with
  | nil => simp [applyUnsubOpts]
  | cons o os ih =>
    cases o with
    | nilOpt => simp [applyUnsubOpts]
    | id i => simp [applyUnsubOpts, applySubOpt, hf, hne]
    | header k v =>
      simp only [applyUnsubOpts, applySubOpt, hf, ne_eq, not_true, and_false, if_false]
      have := ih (f := ⟨Cmd.unsubscribe, f.header.add k v, f.body⟩) rfl
      simp [this]
    | fail => simp [applyUnsubOpts, applySubOpt]

theorem createUnsubscribeFrame_none {id : Bytes} {rt : Bool} {o : List SubOpt} :
    createUnsubscribeFrame id rt o = none ↔ (.fail ∈ o ∨ .nilOpt ∈ o ∨ ∃ id, .id id ∈ o) := by
  unfold createUnsubscribeFrame
  rw [← applyUnsubOpts_none (f := Frame.new Cmd.unsubscribe [(Hdr.id, id)]) rfl]
  cases h : applyUnsubOpts (Frame.new Cmd.unsubscribe [(Hdr.id, id)]) o <;> simp only [reduceCtorEq]

/-- A call with a wrong option hands nothing over. -/
theorem wrong_silent {cfg : Cfg} {n : Nat} {s : Sys} {es : List Ev} (h : (Sys.init n).run cfg es = some s) {t : Nat} {th : Thread}
    (ht : s.threads[t]? = some th) (hw : Spec.Wrong th.call) (r : Req) : Obs.accepted t r ∉ s.trace := by
  intro hm
  have hm' : (t, r) ∈ acceptedIn s.trace := List.mem_filterMap.2 ⟨_, hm, rfl⟩
  obtain ⟨th', ht', hr⟩ := (origin_run h).acc t r hm'
  rw [ht] at ht'; cases ht'
  cases hc : th.call with
  | send d c b o =>
    rw [hc] at hw hr
    obtain ⟨⟨last, last', hf⟩, _⟩ := hr
    have := createSendFrame_none (last := last) (d := d) (c := c) (b := b) (o := o)
    rw [this.2 hw] at hf; cases hf
  | subscribe d a o =>
    rw [hc] at hw hr
    obtain ⟨_, _, last, _, _, _, _, _, _, _, _, hf⟩ := hr
    rw [(createSubscribeFrame_none (last := last) (d := d) (a := a)).2 hw] at hf; cases hf
  | unsubscribe i o =>
    rw [hc] at hw hr
    obtain ⟨⟨b, _, hf⟩, _⟩ := hr
    rw [(createUnsubscribeFrame_none (id := b.id) (rt := b.replyTo)).2 hw] at hf; cases hf
  | frame | disconnect | mustDisconnect => rw [hc] at hw; exact hw.elim

/-- On the way to returning the error of an option. -/
def Pc.refused (pc : Pc) : Prop := pc = .ret .optionError ∨ pc = .subLock .optionError ∨ pc = .check .optionError

theorem frameDone_refused (s : Sys) (t : Nat) (c : Call) {r : Res} (hr : r ≠ .optionError) :
    ∃ pc : Pc, ¬pc.refused ∧ (s.frameDone t c r).threads = s.threads.modify t (fun th => { th with pc := pc }) := by
  unfold Sys.frameDone
  split
  · split
    · exact ⟨_, by simp [Pc.refused], rfl⟩
    · exact ⟨_, by simp [Pc.refused, hr], rfl⟩
  · exact ⟨_, by simp [Pc.refused, hr], rfl⟩

theorem resOf_ne_option (f : Frame) : resOf f ≠ .optionError := by
  unfold resOf
  split <;> simp

theorem handOver_refused {s s' : Sys} {n : Nat} {f : Frame} {b : Bool} (h : s.handOver n f b = some s') :
    s'.threads = s.threads ∨ ∃ (t : Nat) (th : Thread) (pc : Pc), s.threads[t]? = some th ∧
      (∃ m, th.pc = .wait m) ∧ ¬pc.refused ∧ s'.threads = s.threads.modify t (fun th => { th with pc := pc }) := by
  cases handOver_cases h with
  | send hn ht hpc => exact .inr ⟨_, _, _, ht, ⟨_, hpc⟩, by simp [Pc.refused, resOf_ne_option], rfl⟩
  | discOk hn ht hpc hcall hf hr => exact .inr ⟨_, _, _, ht, ⟨_, hpc⟩, by rcases hr with rfl | rfl <;> simp [Pc.refused], rfl⟩
  | discErr hn ht hpc => exact .inr ⟨_, _, _, ht, ⟨_, hpc⟩, by simp [Pc.refused], rfl⟩
  | @frame t th c hn ht hpc =>
    obtain ⟨pc, hp, h1⟩ := frameDone_refused s t th.call (resOf_ne_option f)
    exact .inr ⟨_, _, pc, ht, ⟨_, hpc⟩, hp, h1⟩
  | sub => exact .inl rfl

/-- Where a call with a wrong option can be; and who returns the error of an option. -/
structure RefTh (th : Thread) : Prop where
  wrong : Spec.Wrong th.call → th.pc = .start ∨ th.pc = .ret .optionError ∨ th.pc = .ret .alreadyClosed ∨ th.pc = .ret .closedUnexpectedly ∨
    th.pc = .ret .completedSubscription
  refused : th.pc.refused → Spec.Wrong th.call ∧ th.pc = .ret .optionError

def Refusals (s : Sys) : Prop := ∀ (t : Nat) (th : Thread), s.threads[t]? = some th → RefTh th

theorem ref_step {cfg : Cfg} {s s' : Sys} (hd : Refusals s) (h : Step cfg s s') : Refusals s' := by
  have mod : ∀ {t : Nat} {th : Thread} {g : Thread → Thread}, s.threads[t]? = some th → s'.threads = s.threads.modify t g →
      RefTh (g th) → Refusals s' := by
    intro t th g ht h1 h3
    unfold Refusals
    rw [h1]
    exact all_modify (P := fun _ th => RefTh th) (Q := fun _ th => RefTh th) hd ht (fun _ => h3) (fun _ _ _ _ hp => hp)
  -- A call that is under way has no wrong option.
  have busy : ∀ {t : Nat} {th : Thread}, s.threads[t]? = some th → th.pc ≠ .start → (∀ r, th.pc ≠ .ret r) → ¬Spec.Wrong th.call := by
    intro t th ht h1 h2 hw
    rcases (hd t th ht).wrong hw with e | e | e | e | e
    · exact h1 e
    all_goals exact h2 _ e
  have plain : ∀ {t : Nat} {th : Thread} {pc : Pc}, s.threads[t]? = some th → ¬pc.refused → ¬Spec.Wrong th.call →
      s'.threads = s.threads.modify t (fun th => { th with pc := pc }) → Refusals s' := by
    intro t th pc ht hp hw h1
    exact mod ht h1 ⟨fun hw' => absurd hw' hw, fun e => absurd e hp⟩
  cases h with
  | call c hl =>
    exact all_append (Q := fun _ th => RefTh th) hd ⟨fun _ => .inl rfl, fun e => by simp [Pc.refused] at e⟩
  | helper ht hcall hb h =>
    obtain ⟨th, i, o, b, ht, hcall, hb, hs⟩ := helper_cases h
    have hp := hd _ th ht
    cases hs with
    | sleep hh => exact mod ht rfl ⟨hp.wrong, hp.refused⟩
    | sleepCrash => exact hd
    | wake hh => exact mod ht rfl ⟨hp.wrong, hp.refused⟩
    | relock hh => exact mod ht rfl ⟨hp.wrong, hp.refused⟩
  | early ht hpc hm hcall hE =>
    refine mod ht rfl ⟨fun hw => ?_, fun e => ?_⟩
    · cases hE <;> simp_all [Spec.Wrong]
    · cases hE <;> simp [Pc.refused] at e
      · exact ⟨by rw [hcall]; exact createSendFrame_none.1 (by assumption), rfl⟩
      · exact ⟨by rw [hcall]; exact createSubscribeFrame_none.1 (by assumption), rfl⟩
  | @acquire t th f last ht hm hc ha hr =>
    refine plain ht (by simp [Pc.refused]) ?_ rfl
    cases ha with
    | send hpc hcall hf => rw [hcall]; intro hw; rw [createSendFrame_none.2 hw] at hf; cases hf
    | frame hpc hcall => rw [hcall]; exact id
    | lock hpc => exact busy ht (by rw [hpc]; simp) (by rw [hpc]; simp)
    | disconnect hpc hcall => rw [hcall]; exact id
  | @acquireBare t th f last ht hm hc ha hr =>
    refine plain ht (by simp [Pc.refused]) ?_ rfl
    cases ha with
    | send hpc hcall hf => rw [hcall]; intro hw; rw [createSendFrame_none.2 hw] at hf; cases hf
    | frame hpc hcall => rw [hcall]; exact id
    | lock hpc => exact busy ht (by rw [hpc]; simp) (by rw [hpc]; simp)
    | disconnect hpc hcall => rw [hcall]; exact id
  | @frameClosed t th ht hm hc hpc =>
    obtain ⟨pc, hp, h1⟩ := frameDone_refused s.closeNet t th.call (r := .closedUnexpectedly) (by simp)
    refine plain ht hp ?_ h1
    rcases hpc with ⟨_, f, hcall⟩ | ⟨f, hpc⟩
    · rw [hcall]; exact id
    · exact busy ht (by rw [hpc]; simp) (by rw [hpc]; simp)
  | subscribe ht hpc hcall hm hc hf =>
    refine plain ht (by simp [Pc.refused]) ?_ rfl
    rw [hcall]; intro hw; rw [createSubscribeFrame_none.2 hw] at hf; cases hf
  | unsubOption ht hpc hcall hb hst hf =>
    refine mod ht rfl ⟨fun _ => .inr (.inl rfl), fun _ => ⟨?_, rfl⟩⟩
    show Spec.Wrong _
    rw [hcall]; exact createUnsubscribeFrame_none.1 hf
  | unsubGo ht hpc hcall hb hst hf =>
    refine plain ht (by simp [Pc.refused]) ?_ rfl
    rw [hcall]; intro hw; rw [createUnsubscribeFrame_none.2 hw] at hf; cases hf
  | unsubDone ht hpc hcall => exact mod ht rfl ⟨fun _ => by simp, fun e => by simp [Pc.refused] at e⟩
  | mustGo ht hpc hcall => exact plain ht (by simp [Pc.refused]) (by rw [hcall]; exact id) rfl
  | pushWait ht hpc => exact plain ht (by simp [Pc.refused]) (busy ht (by rw [hpc]; simp) (by rw [hpc]; simp)) rfl
  | pushRet ht hpc => exact plain ht (by simp [Pc.refused]) (busy ht (by rw [hpc]; simp) (by rw [hpc]; simp)) rfl
  | @pushSub t th r n d a o ht hpc =>
    have := handOut_spec { s with writeCh := s.writeCh ++ [r], trace := s.trace ++ [.accepted t r] } n
    refine plain (pc := .ret .ok) ht (by simp [Pc.refused]) (busy ht (by rw [hpc]; simp) (by rw [hpc]; simp)) ?_
    simp only [Sys.ret, Sys.goto, Sys.log, Sys.unlock, this.2.2.1]
  | pushFrameWait ht hpc => exact plain ht (by simp [Pc.refused]) (busy ht (by rw [hpc]; simp) (by rw [hpc]; simp)) rfl
  | @pushFrameRet t th r ht hpc =>
    obtain ⟨pc, hp, h1⟩ := frameDone_refused
      (Sys.unlock { s with writeCh := s.writeCh ++ [r], trace := s.trace ++ [.accepted t r] }) t th.call (r := .ok) (by simp)
    exact plain ht hp (busy ht (by rw [hpc]; simp) (by rw [hpc]; simp)) h1
  | @waitClosed t th n ht hpc =>
    obtain ⟨pc, hp, h1⟩ := frameDone_refused s t th.call (r := .closedUnexpectedly) (by simp)
    exact plain ht hp (busy ht (by rw [hpc]; simp) (by rw [hpc]; simp)) h1
  | @frameTimeout t th n ht hpc =>
    obtain ⟨pc, hp, h1⟩ := frameDone_refused s t th.call (r := .closedUnexpectedly) (by simp)
    exact plain ht hp (busy ht (by rw [hpc]; simp) (by rw [hpc]; simp)) h1
  | @unsub t th i o b _ ht hcall hb hpc h =>
    cases unsub_cases h with
    | closeCrash => exact hd
    | doneCrash => exact hd
    | sleepCrash => exact hd
    | putCrash => exact hd
    | timed hpc => exact mod ht rfl ⟨fun hw => absurd hw (busy (th := th) ht (by rw [hpc]; simp) (by rw [hpc]; simp)), fun e => by simp [Pc.refused] at e⟩
    | lock hpc =>
      have h1 := (hd _ _ ht).refused
      rw [hpc] at h1
      refine plain ht (fun e => ?_) (busy ht (by rw [hpc]; simp) (by rw [hpc]; simp)) rfl
      have := (h1 (by simp only [Pc.refused] at e ⊢; simpa using e)).2
      cases this
    | done hpc =>
      have h1 := (hd _ _ ht).refused
      rw [hpc] at h1
      refine plain ht (fun e => ?_) (busy ht (by rw [hpc]; simp) (by rw [hpc]; simp)) rfl
      have := (h1 (by simp only [Pc.refused] at e ⊢; simpa using e)).2
      cases this
    | closeNext hpc => exact plain ht (by simp [Pc.refused]) (busy ht (by rw [hpc]; simp) (by rw [hpc]; simp)) rfl
    | closeFin hpc => exact plain ht (by simp [Pc.refused]) (busy ht (by rw [hpc]; simp) (by rw [hpc]; simp)) rfl
    | wait hpc => exact plain ht (by simp [Pc.refused]) (busy ht (by rw [hpc]; simp) (by rw [hpc]; simp)) rfl
    | sleep hpc => exact plain ht (by simp [Pc.refused]) (busy ht (by rw [hpc]; simp) (by rw [hpc]; simp)) rfl
    | wake hpc => exact plain ht (by simp [Pc.refused]) (busy ht (by rw [hpc]; simp) (by rw [hpc]; simp)) rfl
    | relock hpc => exact plain ht (by simp [Pc.refused]) (busy ht (by rw [hpc]; simp) (by rw [hpc]; simp)) rfl
    | selected hpc => exact plain ht (by simp [Pc.refused]) (busy ht (by rw [hpc]; simp) (by rw [hpc]; simp)) rfl
    | timedClosed hpc => exact plain ht (by simp [Pc.refused]) (busy ht (by rw [hpc]; simp) (by rw [hpc]; simp)) rfl
    | timedOpen hpc => exact plain ht (by simp [Pc.refused]) (busy ht (by rw [hpc]; simp) (by rw [hpc]; simp)) rfl
    | put hpc => exact plain ht (by simp [Pc.refused]) (busy ht (by rw [hpc]; simp) (by rw [hpc]; simp)) rfl
  | sendTimeout ht hpc => exact plain ht (by simp [Pc.refused]) (busy ht (by rw [hpc]; simp) (by rw [hpc]; simp)) rfl
  | receiptTimeout ht hpc => exact plain ht (by simp [Pc.refused]) (busy ht (by rw [hpc]; simp) (by rw [hpc]; simp)) rfl
  | disconnectTimeout ht hpc => exact plain ht (by simp [Pc.refused]) (busy ht (by rw [hpc]; simp) (by rw [hpc]; simp)) rfl
  | selectTimeout ht hpc => exact plain ht (by simp [Pc.refused]) (busy ht (by rw [hpc]; simp) (by rw [hpc]; simp)) rfl
  | @takeQuiet r rest hl hw ho =>
    have sp := takeReq_spec s r rest
    intro u th hu
    rw [sp.2.2.2.2.2.2.2.1] at hu
    exact hd u th hu
  | @takeSent r rest f hl hw ho =>
    have sp := takeReq_spec s r rest
    intro u th hu
    replace hu : (s.takeReq r rest).1.threads[u]? = some th := hu
    rw [sp.2.2.2.2.2.2.2.1] at hu
    exact hd u th hu
  | @takeFail r rest f order hl hw ho hp =>
    have sp := takeReq_spec s r rest
    intro u th hu
    replace hu : (s.takeReq r rest).1.threads[u]? = some th := hu
    rw [sp.2.2.2.2.2.2.2.1] at hu
    exact hd u th hu
  | @giveReceipt f id n b s1 hl hc h1 =>
    have hth := (closeChan_spec { s1 with channels := s1.channels.del id, loop := .select } n).2.2.2.2.2.2.2.1
    obtain g | ⟨t, th, pc, ht, ⟨m, hpc⟩, hp, g⟩ := handOver_refused h1
    · intro u th hu
      rw [hth, show ({ s1 with channels := s1.channels.del id, loop := .select } : Sys).threads = s1.threads from rfl, g] at hu
      exact hd u th hu
    · exact plain ht hp (busy ht (by rw [hpc]; simp) (by rw [hpc]; simp)) (hth.trans g)
  | @giveMessage f n b s1 hl hc h1 =>
    obtain g | ⟨t, th, pc, ht, ⟨m, hpc⟩, hp, g⟩ := handOver_refused h1
    · intro u th hu
      replace hu : s1.threads[u]? = some th := hu
      rw [g] at hu
      exact hd u th hu
    · exact plain ht hp (busy ht (by rw [hpc]; simp) (by rw [hpc]; simp)) g
  | @giveErr f n l b s1 hl hc h1 =>
    have hth := (closeChan_spec { s1 with loop := .errs f l } n).2.2.2.2.2.2.2.1
    obtain g | ⟨t, th, pc, ht, ⟨m, hpc⟩, hp, g⟩ := handOver_refused h1
    · intro u th hu
      rw [hth, show ({ s1 with loop := .errs f l } : Sys).threads = s1.threads from rfl, g] at hu
      exact hd u th hu
    · exact plain ht hp (busy ht (by rw [hpc]; simp) (by rw [hpc]; simp)) (hth.trans g)
  | @giveFail f n l b s1 hl hc h1 =>
    obtain g | ⟨t, th, pc, ht, ⟨m, hpc⟩, hp, g⟩ := handOver_refused h1
    · intro u th hu
      replace hu : s1.threads[u]? = some th := hu
      rw [g] at hu
      exact hd u th hu
    · exact plain ht hp (busy ht (by rw [hpc]; simp) (by rw [hpc]; simp)) g
  | sub h =>
    obtain ⟨_, _, h1⟩ := subStep_spec h
    intro u th hu
    rw [h1] at hu
    exact hd u th hu
  | _ => exact hd

theorem ref_run {cfg : Cfg} {n : Nat} {s : Sys} {es : List Ev} (h : (Sys.init n).run cfg es = some s) : Refusals s :=
  run_induction (P := Refusals) (fun _ _ _ hp h => ref_step hp (step_cases h).2) es _ _ (by intro t th ht; simp [Sys.init] at ht) h

theorem won_stays {cfg : Cfg} {s s' : Sys} (h : UEff cfg s s') {t : Nat} (hw : s.won t ≠ none) : s'.won t ≠ none := by
  cases h with
  | quiet ht => rw [ht]; exact hw
  | rl ht => rw [ht]; exact hw
  | @cas u i b pc ht ht' hwb =>
    by_cases e : t = u
    · rw [e, ht']; simp
    · rw [hwb t e]; exact hw
  | @thr u i b b' pc pc' h h' ht ht' hwb =>
    by_cases e : t = u
    · rw [e, ht']; simp
    · rw [hwb t e]; exact hw

/-- An `Unsubscribe` that has handed its frame over has passed the compare-and-swap. -/
def Heard (s : Sys) : Prop := ∀ (t : Nat) (r : Req) (th : Thread) (i : Nat) (o : List SubOpt), (t, r) ∈ acceptedIn s.trace →
  s.threads[t]? = some th → th.call = .unsubscribe i o → s.won t ≠ none

theorem heard_step {cfg : Cfg} {s s' : Sys} (hu : UInv s) (ho : OriginInv s) (hp : Heard s) (h : Step cfg s s') : Heard s' := by
  have hst := fun t hw => won_stays (t := t) (ueff_step (cfg := cfg) hu.dom h) hw
  have he := ext_step h
  intro t r th' i o hm ht' hc
  have old : (t, r) ∈ acceptedIn s.trace → s'.won t ≠ none := by
    intro hm
    obtain ⟨th, ht, _⟩ := ho.acc t r hm
    obtain ⟨th'', h1, h2⟩ := he.threads t th ht
    rw [ht'] at h1; cases h1
    exact hst t (hp t r th i o hm ht (h2.symm.trans hc))
  cases eff_step h with
  | same _ h2 => exact old (h2 ▸ hm)
  | call _ _ _ h2 => exact old (h2 ▸ hm)
  | past _ _ _ _ h2 => exact old (h2 ▸ hm)
  | helper _ _ h2 => exact old (h2 ▸ hm)
  | acquire _ _ _ _ _ _ _ h2 => exact old (h2 ▸ hm)
  | acquireBare _ _ _ _ _ _ h2 => exact old (h2 ▸ hm)
  | subscribe _ _ _ _ _ _ _ _ h2 => exact old (h2 ▸ hm)
  | lock _ _ _ _ _ _ h2 => exact old (h2 ▸ hm)
  | @accept u th r' pc ht hpc h1 hpp h2 hw =>
    rw [h2] at hm
    rcases List.mem_append.1 hm with hm | hm
    · exact old hm
    · simp only [List.mem_singleton, Prod.mk.injEq] at hm
      obtain ⟨rfl, rfl⟩ := hm
      obtain ⟨th'', h3, h4⟩ := he.threads t th ht
      rw [ht'] at h3; cases h3
      exact hst t (by rw [won_of ht (h4.symm.trans hc) (by rw [hpc]; simp) (by rw [hpc]; simp)]; simp)

theorem heard_run {cfg : Cfg} {n : Nat} {s : Sys} {es : List Ev} (h : (Sys.init n).run cfg es = some s) : Heard s :=
  (run_induction (P := fun s => (LockInv s ∧ OriginInv s) ∧ UInv s ∧ Heard s)
    (fun _ _ _ hp h => ⟨⟨lock_step hp.1.1 h, origin_step hp.1.1 hp.1.2 (ext_step (step_cases h).2) (eff_step (step_cases h).2)⟩,
      uinv_step hp.2.1 (step_cases h).2, heard_step hp.2.1 hp.1.2 hp.2.2 (step_cases h).2⟩)
    es _ _ ⟨⟨lock_init n, origin_init n⟩, uinv_init n, by intro t r th i o hm; simp [Sys.init, acceptedIn] at hm⟩ h).2.2

/-- The one step of a `Send` or `Subscribe` with a wrong option. -/
theorem wrong_step {cfg : Cfg} {s s' : Sys} {t : Nat} {th : Thread} (ht : s.threads[t]? = some th) (hw : Spec.Wrong th.call)
    (hu : ¬Spec.Unsubscribes th.call) (hp : th.pc = .start ∨ ∃ r, th.pc = .ret r) (h : s.step cfg (.thread t) = some s') :
    Spec.NothingBut t s s' := by
  have key : ∀ (s0 : Sys) (r : Res), s0.threads = s.threads → s0.trace = s.trace →
      (∀ u, u ≠ t → (s0.ret t r).threads[u]? = s.threads[u]?) ∧
      (∃ th' r', (s0.ret t r).threads[t]? = some th' ∧ th'.pc = .ret r' ∧ (s0.ret t r).trace = s.trace ++ [.ret t r']) := by
    intro s0 r h1 h2
    refine ⟨fun u hu => ?_, ⟨{ th with pc := .ret r }, r, ?_, rfl, ?_⟩⟩
    · simp only [Sys.ret, Sys.goto, Sys.log, h1, List.getElem?_modify, if_neg (fun e : t = u => hu e.symm)]
      exact Option.map_id_apply
    · simp only [Sys.ret, Sys.goto, Sys.log, h1, List.getElem?_modify, if_true, ht]; rfl
    · simp only [Sys.ret, Sys.goto, Sys.log, h2]
  simp only [Sys.step] at h
  split at h
  · cases h
  simp only [Sys.thread, ht] at h
  rcases hp with hp | ⟨r, hp⟩
  · simp only [hp] at h
    cases hc : th.call with
    | send d c b o =>
      rw [hc] at hw h
      simp only [Sys.begin, createSendFrame_none.2 hw] at h
      split at h
      · cases h
      split at h <;> cases h
      · exact ⟨rfl, .inl rfl, rfl, rfl, rfl, rfl, rfl, rfl, rfl, rfl, rfl, rfl, (key s _ rfl rfl).1, (key s _ rfl rfl).2⟩
      · exact ⟨rfl, .inl rfl, rfl, rfl, rfl, rfl, rfl, rfl, rfl, rfl, rfl, rfl, (key s _ rfl rfl).1, (key s _ rfl rfl).2⟩
    | subscribe d a o =>
      rw [hc] at hw h
      simp only [Sys.begin, createSubscribeFrame_none.2 hw] at h
      split at h
      · cases h
      split at h <;> cases h
      · rename_i hcl
        exact ⟨rfl, .inr ⟨hcl, rfl⟩, rfl, rfl, rfl, rfl, rfl, rfl, rfl, rfl, rfl, rfl, (key s.closeNet _ rfl rfl).1, (key s.closeNet _ rfl rfl).2⟩
      · exact ⟨rfl, .inl rfl, rfl, rfl, rfl, rfl, rfl, rfl, rfl, rfl, rfl, rfl, (key s _ rfl rfl).1, (key s _ rfl rfl).2⟩
    | unsubscribe i o => rw [hc] at hu; exact absurd trivial hu
    | frame | disconnect | mustDisconnect => rw [hc] at hw; exact hw.elim
  · simp only [hp] at h; cases h

end Stomp.Client
