import Verif.Proofs.Client.Ext
import Verif.Proofs.Client.ClosedBy
import Verif.Spec.Client
/-! # Which request was put on `writeCh` by which call -/
namespace Stomp.Client
open Stomp

/-- What a step does to the callers and to the list of accepted requests. -/
inductive Eff (s s' : Sys) : Prop
  | same (h1 : s'.threads = s.threads) (h2 : acceptedIn s'.trace = acceptedIn s.trace)
  | call (c : Call) (hl : s.legal c = true) (h1 : s'.threads = s.threads ++ [{ call := c, pc := .start, helper := .none }])
      (h2 : acceptedIn s'.trace = acceptedIn s.trace)
  | past {t : Nat} {th : Thread} {g : Thread → Thread} (ht : s.threads[t]? = some th)
      (h1 : s'.threads = s.threads.modify t g) (hg : ∀ b, (g b).call = b.call) (hp : (g th).pc.past = true)
      (h2 : acceptedIn s'.trace = acceptedIn s.trace)
  | helper {t : Nat} {g : Thread → Thread} (h1 : s'.threads = s.threads.modify t g)
      (hg : ∀ b, (g b).call = b.call ∧ (g b).pc = b.pc) (h2 : acceptedIn s'.trace = acceptedIn s.trace)
  | acquire {t : Nat} {th : Thread} {f : Frame} {last : Nat} (ht : s.threads[t]? = some th) (hm : s.mutex = none)
      (ha : Acquire s th f last) (hr : (f.header.contains Hdr.receipt).isSome = true)
      (h1 : s'.threads = s.threads.modify t fun th => { th with pc := .push ⟨f, some s.chans.length⟩ })
      (h3 : s'.chans = s.chans ++ [⟨.caller t, false⟩]) (h4 : s'.subs = s.subs)
      (h2 : acceptedIn s'.trace = acceptedIn s.trace) (h5 : s'.lastId = last)
  | acquireBare {t : Nat} {th : Thread} {f : Frame} {last : Nat} (ht : s.threads[t]? = some th) (hm : s.mutex = none)
      (ha : Acquire s th f last) (hr : f.header.contains Hdr.receipt = none)
      (h1 : s'.threads = s.threads.modify t fun th => { th with pc := .push ⟨f, none⟩ }) (h4 : s'.subs = s.subs)
      (h2 : acceptedIn s'.trace = acceptedIn s.trace)
  | subscribe {t : Nat} {th : Thread} {d : Bytes} {a : AckMode} {o : List SubOpt} {last : Nat} {f : Frame} {id : Bytes}
      {rt : Bool} (ht : s.threads[t]? = some th)
      (hm : s.mutex = none) (hpc : th.pc = .start) (hcall : th.call = .subscribe d a o)
      (hf : createSubscribeFrame s.lastId d a o = some (last, f, id, rt))
      (h1 : s'.threads = s.threads.modify t fun th => { th with pc := .push ⟨f, some s.chans.length⟩ })
      (h3 : s'.chans = s.chans ++ [⟨.sub s.subs.length, false⟩])
      (h4 : s'.subs = s.subs ++ [Sub.new id rt s.chans.length])
      (h2 : acceptedIn s'.trace = acceptedIn s.trace) (h5 : s'.lastId = last)
  | lock {t : Nat} {th : Thread} {i : Nat} {o : List SubOpt} {b : Sub} {f : Frame} (ht : s.threads[t]? = some th)
      (hpc : th.pc = .start) (hcall : th.call = .unsubscribe i o) (hb : s.subs[i]? = some b)
      (hf : createUnsubscribeFrame b.id b.replyTo o = some f)
      (h1 : s'.threads = s.threads.modify t fun th => { th with pc := .lock f })
      (h2 : acceptedIn s'.trace = acceptedIn s.trace)
  | accept {t : Nat} {th : Thread} {r : Req} {pc : Pc} (ht : s.threads[t]? = some th) (hpc : th.pc = .push r)
      (h1 : s'.threads = s.threads.modify t fun th => { th with pc := pc })
      (hp : pc.past = true ∨ ∃ n, pc = .wait n ∧ r.chan = some n)
      (h2 : acceptedIn s'.trace = acceptedIn s.trace ++ [(t, r)]) (hw : s'.writeCh = s.writeCh ++ [r])

theorem acceptedIn_one (tr : List Obs) (t : Nat) (r : Req) : acceptedIn (tr ++ [.accepted t r]) = acceptedIn tr ++ [(t, r)] := by
  simp [acceptedIn]

theorem acceptedIn_ret (tr : List Obs) (t : Nat) (r : Res) : acceptedIn (tr ++ [.ret t r]) = acceptedIn tr := by
  simp [acceptedIn]

theorem frameDone_past (s : Sys) (t : Nat) (c : Call) (r : Res) :
    ∃ pc : Pc, pc.past = true ∧ (s.frameDone t c r).threads = s.threads.modify t (fun th => { th with pc := pc }) ∧
      acceptedIn (s.frameDone t c r).trace = acceptedIn s.trace := by
  obtain ⟨pc, _, _, _, hth, ⟨rfl, _, htr⟩ | ⟨rfl | rfl, _, htr⟩⟩ := frameDone_spec s t c r
  · exact ⟨_, rfl, hth, by rw [htr, acceptedIn_ret]⟩
  · exact ⟨_, rfl, hth, by rw [htr]⟩
  · exact ⟨_, rfl, hth, by rw [htr]⟩

theorem handOver_past {s s' : Sys} {n : Nat} {f : Frame} {b : Bool} (h : s.handOver n f b = some s') :
    acceptedIn s'.trace = acceptedIn s.trace ∧
    (s'.threads = s.threads ∨ ∃ (t : Nat) (th : Thread) (pc : Pc), s.threads[t]? = some th ∧ th.pc = .wait n ∧
      pc.past = true ∧ s'.threads = s.threads.modify t (fun th => { th with pc := pc })) := by
  cases handOver_cases h with
  | send hn ht hpc => exact ⟨acceptedIn_ret _ _ _, .inr ⟨_, _, _, ht, hpc, rfl, rfl⟩⟩
  | discOk hn ht hpc => exact ⟨acceptedIn_ret _ _ _, .inr ⟨_, _, _, ht, hpc, rfl, rfl⟩⟩
  | discErr hn ht hpc => exact ⟨acceptedIn_ret _ _ _, .inr ⟨_, _, _, ht, hpc, rfl, rfl⟩⟩
  | @frame t th c hn ht hpc =>
    obtain ⟨pc, hp, h1, h2⟩ := frameDone_past s t th.call (resOf f)
    exact ⟨h2, .inr ⟨_, _, pc, ht, hpc, hp, h1⟩⟩
  | sub => exact ⟨rfl, .inl rfl⟩

theorem eff_give {s s1 s' : Sys} {n : Nat} {f : Frame} {b : Bool} (h : s.handOver n f b = some s1)
    (h1 : s'.threads = s1.threads) (h2 : s'.trace = s1.trace) : Eff s s' := by
  obtain ⟨ha, hth | ⟨t, th, pc, ht, _, hp, hth⟩⟩ := handOver_past h
  · exact .same (h1.trans hth) (by rw [h2]; exact ha)
  · exact .past ht (h1.trans hth) (fun _ => rfl) hp (by rw [h2]; exact ha)

theorem acceptedIn_quiet {tr : List Obs} {o : Obs} (h : ∀ t r, o ≠ .accepted t r) :
    acceptedIn (tr ++ [o]) = acceptedIn tr := by
  cases o <;> simp_all [acceptedIn]

theorem eff_step {cfg : Cfg} {s s' : Sys} (h : Step cfg s s') : Eff s s' := by
  cases h with
  | call c hl => exact .call c hl rfl rfl
  | early ht => exact .past ht rfl (fun _ => rfl) rfl (acceptedIn_ret _ _ _)
  | acquire ht hm hc ha hr => exact .acquire ht hm ha hr rfl rfl rfl rfl rfl
  | acquireBare ht hm hc ha hr => exact .acquireBare ht hm ha hr rfl rfl rfl
  | @frameClosed t th ht =>
    obtain ⟨pc, hp, h1, h2⟩ := frameDone_past s.closeNet t th.call .closedUnexpectedly
    exact .past ht h1 (fun _ => rfl) hp h2
  | subscribe ht hpc hcall hm hc hf => exact .subscribe ht hm hpc hcall hf rfl rfl rfl rfl rfl
  | unsubOption ht => exact .past ht rfl (fun _ => rfl) rfl (acceptedIn_ret _ _ _)
  | unsubGo ht hpc hcall hb hst hf => exact .lock ht hpc hcall hb hf rfl rfl
  | unsubDone ht => exact .past ht rfl (fun _ => rfl) rfl (acceptedIn_ret _ _ _)
  | mustGo ht => exact .past ht rfl (fun _ => rfl) rfl (acceptedIn_ret _ _ _)
  | pushWait ht hpc hw hcap hr => exact .accept ht hpc rfl (.inr ⟨_, rfl, hr⟩) (acceptedIn_one _ _ _) rfl
  | pushRet ht hpc => exact .accept ht hpc rfl (.inl rfl) ((acceptedIn_ret _ _ _).trans (acceptedIn_one _ _ _)) rfl
  | @pushSub t th r n d a o ht hpc =>
    have := handOut_spec { s with writeCh := s.writeCh ++ [r], trace := s.trace ++ [.accepted t r] } n
    refine .accept ht hpc (pc := .ret .ok) ?_ (.inl rfl) ?_ this.1.writeCh
    · simp only [Sys.ret, Sys.goto, Sys.log, Sys.unlock, this.2.2.1]
    · exact (acceptedIn_ret _ _ _).trans ((congrArg acceptedIn this.2.1).trans (acceptedIn_one _ _ _))
  | pushFrameWait ht hpc hw hcap hr => exact .accept ht hpc rfl (.inr ⟨_, rfl, hr⟩) (acceptedIn_one _ _ _) rfl
  | @pushFrameRet t th r ht hpc =>
    obtain ⟨pc, hp, h1, h2⟩ := frameDone_past
      (Sys.unlock { s with writeCh := s.writeCh ++ [r], trace := s.trace ++ [.accepted t r] }) t th.call .ok
    exact .accept ht hpc h1 (.inl hp) (h2.trans (acceptedIn_one _ _ _)) (frameDone_spec _ _ _ _).choose_spec.1.writeCh
  | @waitClosed t th n ht =>
    obtain ⟨pc, hp, h1, h2⟩ := frameDone_past s t th.call .closedUnexpectedly
    exact .past ht h1 (fun _ => rfl) hp h2
  | unsub ht hcall hb hpc h =>
    obtain ⟨hcore, ⟨h1, h2, _⟩ | ⟨_, pc, hp, h1, hpast, ⟨_, h2⟩ | ⟨r, _, h2⟩⟩⟩ := unsub_spec h
    · exact .same h1 (by rw [h2])
    · exact .past ht h1 (fun _ => rfl) hpast (by rw [h2])
    · exact .past ht h1 (fun _ => rfl) hpast (by rw [h2]; exact acceptedIn_ret _ _ _)
  | sendTimeout ht => exact .past ht rfl (fun _ => rfl) rfl (acceptedIn_ret _ _ _)
  | receiptTimeout ht => exact .past ht rfl (fun _ => rfl) rfl (acceptedIn_ret _ _ _)
  | disconnectTimeout ht => exact .past ht rfl (fun _ => rfl) rfl (acceptedIn_ret _ _ _)
  | @frameTimeout t th n ht =>
    obtain ⟨pc, hp, h1, h2⟩ := frameDone_past s t th.call .closedUnexpectedly
    exact .past ht h1 (fun _ => rfl) hp h2
  | selectTimeout ht => exact .past ht rfl (fun _ => rfl) rfl rfl
  | helper ht hcall hb h =>
    obtain ⟨hcore, h2, ⟨h1, _⟩ | ⟨_, hp, h1⟩⟩ := helper_spec h
    · exact .same h1 (by rw [h2])
    · exact .helper h1 (fun _ => ⟨rfl, rfl⟩) (by rw [h2])
  | @takeQuiet r rest hl hw ho =>
    have sp := takeReq_spec s r rest
    exact .same sp.2.2.2.2.2.2.2.1 (by rw [sp.2.2.2.2.2.2.2.2.2.1]; exact acceptedIn_quiet (by simp))
  | @takeSent r rest f hl hw ho =>
    have sp := takeReq_spec s r rest
    refine .same sp.2.2.2.2.2.2.2.1 ((acceptedIn_quiet (by simp)).trans ?_)
    rw [sp.2.2.2.2.2.2.2.2.2.1]; exact acceptedIn_quiet (by simp)
  | @takeFail r rest f order hl hw ho hp =>
    have sp := takeReq_spec s r rest
    refine .same sp.2.2.2.2.2.2.2.1 ((acceptedIn_quiet (by simp)).trans ?_)
    rw [sp.2.2.2.2.2.2.2.2.2.1]; exact acceptedIn_quiet (by simp)
  | giveReceipt hl hc h1 => exact eff_give h1 (closeChan_spec _ _).2.2.2.2.2.2.2.1 (closeChan_spec _ _).2.2.2.2.2.2.2.2.2.1
  | giveMessage hl hc h1 => exact eff_give h1 rfl rfl
  | giveErr hl hc h1 => exact eff_give h1 (closeChan_spec _ _).2.2.2.2.2.2.2.1 (closeChan_spec _ _).2.2.2.2.2.2.2.2.2.1
  | giveFail hl hc h1 => exact eff_give h1 rfl rfl
  | sub h =>
    obtain ⟨hcore, h2, h1⟩ := subStep_spec h
    exact .same h1 (by rw [h2])
  | _ =>
    first
      | exact .same rfl rfl
      | exact .same rfl (acceptedIn_quiet (by simp))

/-- The request `r` is one that call `call` of caller `t` makes: the frame is the call's, and the response
channel is one of its own, present iff the frame asks for a receipt, or in the case of `Subscribe` that of the
new subscription. -/
def ReqOf (s : Sys) (t : Nat) (call : Call) (r : Req) : Prop :=
  match call with
  | .subscribe d a o => ∃ (n i last last' : Nat) (b : Sub) (c : Chan), r.chan = some n ∧ s.chans[n]? = some c ∧ c.owner = .sub i ∧
      s.subs[i]? = some b ∧ b.chan = n ∧ createSubscribeFrame last d a o = some (last', r.frame, b.id, b.replyTo)
  | _ => Spec.FrameOf s call r.frame ∧
      ((r.chan = none ∧ r.frame.header.contains Hdr.receipt = none) ∨
        ∃ (n : Nat) (c : Chan), r.chan = some n ∧ s.chans[n]? = some c ∧ c.owner = .caller t ∧
          (r.frame.header.contains Hdr.receipt).isSome = true)

theorem frameOf_ext {s s' : Sys} {call : Call} {f : Frame} (he : Ext s s') (h : Spec.FrameOf s call f) :
    Spec.FrameOf s' call f := by
  cases call with
  | unsubscribe i o =>
    obtain ⟨b, hb, hf⟩ := h
    obtain ⟨b', hb', h1, h2, _⟩ := he.subs i b hb
    exact ⟨b', hb', by rw [h1, h2]; exact hf⟩
  | _ => exact h

theorem reqOf_ext {s s' : Sys} {t : Nat} {call : Call} {r : Req} (he : Ext s s') (h : ReqOf s t call r) :
    ReqOf s' t call r := by
  have key : (Spec.FrameOf s call r.frame ∧
      ((r.chan = none ∧ r.frame.header.contains Hdr.receipt = none) ∨
        ∃ (n : Nat) (c : Chan), r.chan = some n ∧ s.chans[n]? = some c ∧ c.owner = .caller t ∧
          (r.frame.header.contains Hdr.receipt).isSome = true)) → (Spec.FrameOf s' call r.frame ∧
      ((r.chan = none ∧ r.frame.header.contains Hdr.receipt = none) ∨
        ∃ (n : Nat) (c : Chan), r.chan = some n ∧ s'.chans[n]? = some c ∧ c.owner = .caller t ∧
          (r.frame.header.contains Hdr.receipt).isSome = true)) := by
    rintro ⟨h1, h2 | ⟨n, c, h2, h3, h4, h5⟩⟩
    · exact ⟨frameOf_ext he h1, .inl h2⟩
    · obtain ⟨c', h6, h7⟩ := he.chans n c h3
      exact ⟨frameOf_ext he h1, .inr ⟨n, c', h2, h6, h7.trans h4, h5⟩⟩
  cases call with
  | subscribe d a o =>
    obtain ⟨n, i, last, last', b, c, h1, h2, h3, h4, h5, h6⟩ := h
    obtain ⟨c', g2, g3⟩ := he.chans n c h2
    obtain ⟨b', g4, g5, g6, g7⟩ := he.subs i b h4
    exact ⟨n, i, last, last', b', c', h1, g2, g3.trans h3, g4, g7.trans h5, by rw [g5, g6]; exact h6⟩
  | _ => exact key h

theorem reqOf_lt {s : Sys} {t : Nat} {call : Call} {r : Req} {n : Nat} (h : ReqOf s t call r) (hn : r.chan = some n) :
    n < s.chans.length := by
  have : ∃ c, s.chans[n]? = some c := by
    cases call with
    | subscribe d a o =>
      obtain ⟨m, i, last, last', b, c, h1, h2, _⟩ := h
      rw [h1] at hn; cases hn; exact ⟨c, h2⟩
    | _ =>
      obtain ⟨_, ⟨h1, _⟩ | ⟨m, c, h1, h2, _⟩⟩ := h
      · rw [h1] at hn; cases hn
      · rw [h1] at hn; cases hn; exact ⟨c, h2⟩
  obtain ⟨c, hc⟩ := this
  exact (List.getElem?_eq_some_iff.1 hc).1

structure CallerOk (s : Sys) (t : Nat) (th : Thread) : Prop where
  early : th.pc = .start ∨ (∃ f, th.pc = .lock f) ∨ (∃ r, th.pc = .push r) → ∀ r, (t, r) ∉ acceptedIn s.trace
  lock : ∀ f, th.pc = .lock f → Spec.FrameOf s th.call f ∧ ∃ i o, th.call = .unsubscribe i o
  push : ∀ r, th.pc = .push r → ReqOf s t th.call r ∧
    ∀ t' r' n, (t', r') ∈ acceptedIn s.trace → r.chan = some n → r'.chan ≠ some n
  wait : ∀ n, th.pc = .wait n → ∃ r, (t, r) ∈ acceptedIn s.trace ∧ r.chan = some n
  raw : ∀ f, th.call = .frame f → f.command ∈ rawCommands

structure OriginInv (s : Sys) : Prop where
  callers : ∀ (t : Nat) (th : Thread), s.threads[t]? = some th → CallerOk s t th
  acc : ∀ (t : Nat) (r : Req), (t, r) ∈ acceptedIn s.trace → ∃ th, s.threads[t]? = some th ∧ ReqOf s t th.call r
  nodup : ((acceptedIn s.trace).map (·.1)).Nodup
  chan : ∀ (t t' : Nat) (r r' : Req) (n : Nat), (t, r) ∈ acceptedIn s.trace → (t', r') ∈ acceptedIn s.trace →
    r.chan = some n → r'.chan = some n → t = t'

theorem callerOk_past {s : Sys} {t : Nat} {th : Thread} (h : th.pc.past = true)
    (hr : ∀ f, th.call = .frame f → f.command ∈ rawCommands) : CallerOk s t th := by
  constructor
  · intro h1
    rcases h1 with h1 | ⟨f, h1⟩ | ⟨r, h1⟩ <;> rw [h1] at h <;> cases h
  · intro f h1; rw [h1] at h; cases h
  · intro f h1; rw [h1] at h; cases h
  · intro f h1; rw [h1] at h; cases h
  · exact hr

theorem callerOk_ext {s s' : Sys} {t : Nat} {th th' : Thread} (he : Ext s s') (h2 : acceptedIn s'.trace = acceptedIn s.trace)
    (hc : th'.call = th.call) (hp : th'.pc = th.pc) (h : CallerOk s t th) : CallerOk s' t th' := by
  obtain ⟨a, b, c, d, e⟩ := h
  constructor
  · rw [hp, h2]; exact a
  · rw [hp, hc]; exact fun f hf => ⟨frameOf_ext he (b f hf).1, (b f hf).2⟩
  · rw [hp, hc, h2]; exact fun r hr => ⟨reqOf_ext he (c r hr).1, (c r hr).2⟩
  · rw [hp, h2]; exact d
  · rw [hc]; exact e

theorem accOf_ext {s s' : Sys} (he : Ext s s') {t : Nat} {r : Req} (h : ∃ th, s.threads[t]? = some th ∧ ReqOf s t th.call r) :
    ∃ th, s'.threads[t]? = some th ∧ ReqOf s' t th.call r := by
  obtain ⟨th, ht, hr⟩ := h
  obtain ⟨th', ht', hc⟩ := he.threads t th ht
  exact ⟨th', ht', by rw [hc]; exact reqOf_ext he hr⟩

theorem acquire_reqOf {s : Sys} {t : Nat} {th : Thread} {f : Frame} {last : Nat} (h : CallerOk s t th)
    (ha : Acquire s th f last) : (th.pc = .start ∨ ∃ f, th.pc = .lock f) ∧ Spec.FrameOf s th.call f ∧
      ∀ d a o, th.call ≠ .subscribe d a o := by
  cases ha with
  | send hpc hcall hf => exact ⟨.inl hpc, by rw [hcall]; exact ⟨_, _, hf⟩, by simp [hcall]⟩
  | frame hpc hcall => exact ⟨.inl hpc, by rw [hcall]; exact ⟨rfl, h.raw _ hcall⟩, by simp [hcall]⟩
  | lock hpc =>
    obtain ⟨h1, i, o, h2⟩ := h.lock _ hpc
    exact ⟨.inr ⟨_, hpc⟩, h1, by simp [h2]⟩
  | disconnect hpc hcall => exact ⟨.inl hpc, by rw [hcall]; exact ⟨_, rfl⟩, by simp [hcall]⟩

theorem reqOf_caller {s : Sys} {t : Nat} {call : Call} {r : Req} (hn : ∀ d a o, call ≠ .subscribe d a o) :
    ReqOf s t call r ↔ Spec.FrameOf s call r.frame ∧
      ((r.chan = none ∧ r.frame.header.contains Hdr.receipt = none) ∨
        ∃ (n : Nat) (c : Chan), r.chan = some n ∧ s.chans[n]? = some c ∧ c.owner = .caller t ∧
          (r.frame.header.contains Hdr.receipt).isSome = true) := by
  cases call with
  | subscribe d a o => exact absurd rfl (hn d a o)
  | _ => exact Iff.rfl

/-- A caller gets a request to push. -/
theorem origin_push {s s' : Sys} {t : Nat} {th : Thread} {r : Req} (hi : OriginInv s) (he : Ext s s')
    (ht : s.threads[t]? = some th) (hpc : th.pc = .start ∨ ∃ f, th.pc = .lock f)
    (h1 : s'.threads = s.threads.modify t fun th => { th with pc := .push r })
    (h2 : acceptedIn s'.trace = acceptedIn s.trace) (hr : ReqOf s' t th.call r)
    (hn : ∀ n, r.chan = some n → s.chans.length ≤ n) : OriginInv s' := by
  refine ⟨?_, ?_, by rw [h2]; exact hi.nodup, by rw [h2]; exact hi.chan⟩
  · rw [h1]
    refine all_modify (Q := CallerOk s') hi.callers ht ?_ (fun u thu _ _ h => callerOk_ext he h2 rfl rfl h)
    intro hok
    constructor
    · intro _; rw [h2]; exact hok.early (by rcases hpc with h | h; exact .inl h; exact .inr (.inl h))
    · intro f hf; cases hf
    · intro r' hr'
      cases hr'
      refine ⟨hr, ?_⟩
      intro t' r' n hm hn' hn''
      rw [h2] at hm
      obtain ⟨th', _, hq⟩ := hi.acc t' r' hm
      have := reqOf_lt hq hn''
      have := hn n hn'
      omega
    · intro n hn; cases hn
    · exact hok.raw
  · intro t' r' hm
    rw [h2] at hm
    exact accOf_ext he (hi.acc t' r' hm)

theorem origin_step {s s' : Sys} (hl : LockInv s) (hi : OriginInv s) (he : Ext s s') (h : Eff s s') : OriginInv s' := by
  cases h with
  | same h1 h2 =>
    refine ⟨?_, ?_, by rw [h2]; exact hi.nodup, by rw [h2]; exact hi.chan⟩
    · rw [h1]; exact fun t th ht => callerOk_ext he h2 rfl rfl (hi.callers t th ht)
    · rw [h2]; exact fun t r hm => accOf_ext he (hi.acc t r hm)
  | call c hl h1 h2 =>
    refine ⟨?_, ?_, by rw [h2]; exact hi.nodup, by rw [h2]; exact hi.chan⟩
    · rw [h1]
      refine all_append (fun t th ht => callerOk_ext he h2 rfl rfl (hi.callers t th ht)) ?_
      constructor
      · rw [h2]
        intro _ r hm
        obtain ⟨th, ht, _⟩ := hi.acc _ _ hm
        rw [List.getElem?_eq_none (Nat.le_refl _)] at ht
        cases ht
      · intro f hf; cases hf
      · intro f hf; cases hf
      · intro f hf; cases hf
      · intro f hf
        simp only at hf
        rw [hf] at hl
        simpa [Sys.legal] using hl
    · rw [h2]; exact fun t r hm => accOf_ext he (hi.acc t r hm)
  | past ht h1 hg hp h2 =>
    refine ⟨?_, ?_, by rw [h2]; exact hi.nodup, by rw [h2]; exact hi.chan⟩
    · rw [h1]
      refine all_modify (Q := CallerOk s') hi.callers ht ?_ (fun u thu _ _ h => callerOk_ext he h2 rfl rfl h)
      intro hok
      refine callerOk_past hp ?_
      rw [hg]; exact hok.raw
    · rw [h2]; exact fun t r hm => accOf_ext he (hi.acc t r hm)
  | @helper t g h1 hg h2 =>
    refine ⟨?_, ?_, by rw [h2]; exact hi.nodup, by rw [h2]; exact hi.chan⟩
    · rw [h1]
      intro u thu hu
      rw [List.getElem?_modify] at hu
      split at hu
      · obtain ⟨th, ht, rfl⟩ := Option.map_eq_some_iff.1 hu
        exact callerOk_ext he h2 (hg th).1 (hg th).2 (hi.callers u th ht)
      · simp at hu
        exact callerOk_ext he h2 rfl rfl (hi.callers u thu hu)
    · rw [h2]; exact fun t r hm => accOf_ext he (hi.acc t r hm)
  | @acquire t th f last ht hm ha hr h1 h3 h4 h2 =>
    obtain ⟨hpc, hf, hns⟩ := acquire_reqOf (hi.callers t th ht) ha
    refine origin_push hi he ht hpc h1 h2 ?_ (fun n hn => by simp only [Option.some.injEq] at hn; omega)
    rw [reqOf_caller hns]
    exact ⟨frameOf_ext he hf, .inr ⟨_, ⟨.caller t, false⟩, rfl, by rw [h3]; simp, rfl, hr⟩⟩
  | @acquireBare t th f last ht hm ha hr h1 h4 h2 =>
    obtain ⟨hpc, hf, hns⟩ := acquire_reqOf (hi.callers t th ht) ha
    refine origin_push hi he ht hpc h1 h2 ?_ (fun n hn => by cases hn)
    rw [reqOf_caller hns]
    exact ⟨frameOf_ext he hf, .inl ⟨rfl, hr⟩⟩
  | @subscribe t th d a o last f id rt ht hm hpc hcall hf h1 h3 h4 h2 =>
    refine origin_push hi he ht (.inl hpc) h1 h2 ?_ (fun n hn => by simp only [Option.some.injEq] at hn; omega)
    rw [hcall]
    exact ⟨_, _, _, _, Sub.new id rt s.chans.length, ⟨.sub s.subs.length, false⟩, rfl, by rw [h3]; simp, rfl, by rw [h4]; simp, rfl, hf⟩
  | @lock t th i o b f ht hpc hcall hb hf h1 h2 =>
    refine ⟨?_, ?_, by rw [h2]; exact hi.nodup, by rw [h2]; exact hi.chan⟩
    · rw [h1]
      refine all_modify (Q := CallerOk s') hi.callers ht ?_ (fun u thu _ _ h => callerOk_ext he h2 rfl rfl h)
      intro hok
      constructor
      · intro _; rw [h2]; exact hok.early (.inl hpc)
      · intro g hg
        cases hg
        dsimp only
        rw [hcall]
        exact ⟨frameOf_ext he ⟨b, hb, hf⟩, i, o, rfl⟩
      · intro r hr; cases hr
      · intro n hn; cases hn
      · exact hok.raw
    · rw [h2]; exact fun t r hm => accOf_ext he (hi.acc t r hm)
  | @accept t th r pc ht hpc h1 hp h2 =>
    have hok := hi.callers t th ht
    obtain ⟨hreq, hfresh⟩ := hok.push r hpc
    have hnew := hok.early (.inr (.inr ⟨r, hpc⟩))
    refine ⟨?_, ?_, ?_, ?_⟩
    · rw [h1]
      intro u thu hu
      rw [List.getElem?_modify] at hu
      split at hu
      · rename_i htu
        subst htu
        rw [ht] at hu
        simp only [Option.map_eq_map, Option.map_some, Option.some.injEq] at hu
        subst hu
        rcases hp with hp | ⟨n, rfl, hn⟩
        · exact callerOk_past hp hok.raw
        · constructor
          · intro h; simp at h
          · intro f hf; cases hf
          · intro f hf; cases hf
          · intro m hm
            cases hm
            exact ⟨r, by rw [h2]; simp, hn⟩
          · exact hok.raw
      · rename_i htu
        simp at hu
        have hu' := hi.callers u thu hu
        have hnp : ∀ r, thu.pc ≠ .push r := by
          intro r' hr'
          have e1 := (hl.hold u thu hu (by simp [Thread.holds, hr'])).1
          have e2 := (hl.hold t th ht (by simp [Thread.holds, hpc])).1
          rw [e1] at e2
          cases e2
          exact htu rfl
        constructor
        · intro h r' hm
          rw [h2] at hm
          simp only [List.mem_append, List.mem_singleton, Prod.mk.injEq] at hm
          rcases hm with hm | ⟨rfl, _⟩
          · exact hu'.early h r' hm
          · exact htu rfl
        · exact fun f hf => ⟨frameOf_ext he (hu'.lock f hf).1, (hu'.lock f hf).2⟩
        · exact fun r' hr' => absurd hr' (hnp r')
        · intro n hn
          obtain ⟨r', h3, h4⟩ := hu'.wait n hn
          exact ⟨r', by rw [h2]; simp [h3], h4⟩
        · exact hu'.raw
    · intro t' r' hm
      rw [h2] at hm
      simp only [List.mem_append, List.mem_singleton, Prod.mk.injEq] at hm
      rcases hm with hm | ⟨rfl, rfl⟩
      · exact accOf_ext he (hi.acc t' r' hm)
      · exact accOf_ext he ⟨th, ht, hreq⟩
    · rw [h2, List.map_append, List.nodup_append]
      refine ⟨hi.nodup, by simp, ?_⟩
      intro a ha b hb
      simp only [List.map_cons, List.map_nil, List.mem_singleton] at hb
      subst hb
      rintro rfl
      obtain ⟨⟨x, y⟩, hm, rfl⟩ := List.mem_map.1 ha
      exact hnew y hm
    · intro t1 t2 r1 r2 n hm1 hm2 hn1 hn2
      rw [h2] at hm1 hm2
      simp only [List.mem_append, List.mem_singleton, Prod.mk.injEq] at hm1 hm2
      rcases hm1 with hm1 | ⟨rfl, rfl⟩ <;> rcases hm2 with hm2 | ⟨rfl, rfl⟩
      · exact hi.chan t1 t2 r1 r2 n hm1 hm2 hn1 hn2
      · exact absurd hn1 (hfresh t1 r1 n hm1 hn2)
      · exact absurd hn2 (hfresh t2 r2 n hm2 hn1)
      · rfl

theorem origin_init (n : Nat) : OriginInv (Sys.init n) := by
  constructor
  · intro t th ht; simp [Sys.init] at ht
  · intro t r h; simp [Sys.init, acceptedIn] at h
  · simp [Sys.init, acceptedIn]
  · intro t t' r r' n h; simp [Sys.init, acceptedIn] at h

theorem origin_run {cfg : Cfg} {n : Nat} {s : Sys} {es : List Ev} (h : (Sys.init n).run cfg es = some s) : OriginInv s :=
  (run_induction (P := fun s => LockInv s ∧ OriginInv s)
    (fun _ _ _ hp h => ⟨lock_step hp.1 h, origin_step hp.1 hp.2 (ext_step (step_cases h).2) (eff_step (step_cases h).2)⟩)
    es _ _ ⟨lock_init n, origin_init n⟩ h).2

/-- Two requests accepted from one caller are one. -/
theorem OriginInv.one {s : Sys} (hi : OriginInv s) {t : Nat} {r r' : Req} (h : (t, r) ∈ acceptedIn s.trace)
    (h' : (t, r') ∈ acceptedIn s.trace) : r = r' := by
  have := hi.nodup
  generalize acceptedIn s.trace = l at *
  induction l with
  | nil => cases h
  | cons a l ih =>
    simp only [List.map_cons, List.nodup_cons] at this
    have no : ∀ x, (a.1, x) ∉ l := fun x hx => this.1 (List.mem_map.2 ⟨_, hx, rfl⟩)
    rcases List.mem_cons.1 h with h1 | h1 <;> rcases List.mem_cons.1 h' with h2 | h2
    · rw [← h1] at h2; cases h2; rfl
    · rw [← h1] at no; exact absurd h2 (no _)
    · rw [← h2] at no; exact absurd h1 (no _)
    · exact ih h1 h2 this.2

end Stomp.Client
