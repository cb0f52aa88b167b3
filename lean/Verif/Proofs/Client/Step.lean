import Verif.Proofs.Client.Lock
/-!
# The steps of the client system, one constructor per kind

`Step` lists what `Sys.step` can do with the conditions under which it does it (`step_cases`); the invariants
are proved by cases on it.
-/
namespace Stomp.Client
open Stomp

/-- A call that returns without having handed anything over. -/
inductive Early (s : Sys) : Call → Res → Prop
  | sendClosed {d c b o} : s.closed = true → Early s (.send d c b o) .alreadyClosed
  | sendOption {d c b o} : s.closed = false → createSendFrame s.lastId d c b o = none → Early s (.send d c b o) .optionError
  | subClosed {d a o} : s.closed = true → Early s (.subscribe d a o) .closedUnexpectedly
  | subOption {d a o} : s.closed = false → createSubscribeFrame s.lastId d a o = none → Early s (.subscribe d a o) .optionError
  | disconnect : s.closed = true → Early s .disconnect .ok
  | mustDisconnect : s.closed = true → Early s .mustDisconnect .ok

/-- The frame a caller is about to put on `writeCh` (`last`: the id counter afterwards). -/
inductive Acquire (s : Sys) (th : Thread) : Frame → Nat → Prop
  | send {d c b o f last} : th.pc = .start → th.call = .send d c b o →
      createSendFrame s.lastId d c b o = some (last, f) → Acquire s th f last
  | frame {f} : th.pc = .start → th.call = .frame f → Acquire s th f s.lastId
  | lock {f} : th.pc = .lock f → Acquire s th f s.lastId
  | disconnect : th.pc = .start → th.call = .disconnect →
      Acquire s th (Frame.new Cmd.disconnect [(Hdr.receipt, (allocateId s.lastId).2)]) (allocateId s.lastId).1

/-- `processLoop` does nothing with what it read. -/
def Skipped (s : Sys) (x : Option Frame) : Prop :=
  ∀ f, x = some f → f.command ≠ Cmd.error ∧
    (f.command = Cmd.receipt → ∃ id, f.header.contains Hdr.receiptId = some id ∧ s.channels.get? id = none) ∧
    (f.command = Cmd.message → ∀ id, f.header.contains Hdr.subscription = some id → s.channels.get? id = none)

/-- The texts of the ERROR frames `processLoop` makes itself. -/
def ownTexts : List Bytes :=
  [b!"read timeout", b!"write error", b!"connection closed", b!"missing receipt-id", b!"write channel closed"]

inductive Step (cfg : Cfg) (s : Sys) : Sys → Prop
  | call (c : Call) (hl : s.legal c = true) :
      Step cfg s { s with threads := s.threads ++ [{ call := c, pc := .start, helper := .none }] }
  | early {t : Nat} {th : Thread} {r : Res} {nc} (ht : s.threads[t]? = some th) (hpc : th.pc = .start) (hm : s.mutex = none)
      {c : Call} (hcall : th.call = c) (he : Early s c r) : Step cfg s ({ s with netClosed := nc }.ret t r)
  | acquire {t : Nat} {th : Thread} {f : Frame} {last : Nat} (ht : s.threads[t]? = some th) (hm : s.mutex = none) (hc : s.closed = false)
      (ha : Acquire s th f last) (hr : (f.header.contains Hdr.receipt).isSome = true) :
      Step cfg s (({ s with lastId := last, mutex := some t }.newChan (.caller t)).goto t
        (.push ⟨f, some s.chans.length⟩))
  | acquireBare {t : Nat} {th : Thread} {f : Frame} {last : Nat} (ht : s.threads[t]? = some th) (hm : s.mutex = none) (hc : s.closed = false)
      (ha : Acquire s th f last) (hr : f.header.contains Hdr.receipt = none) :
      Step cfg s ({ s with lastId := last, mutex := some t }.goto t (.push ⟨f, none⟩))
  | frameClosed {t : Nat} {th : Thread} (ht : s.threads[t]? = some th) (hm : s.mutex = none) (hc : s.closed = true)
      (hpc : (th.pc = .start ∧ ∃ f, th.call = .frame f) ∨ ∃ f, th.pc = .lock f) :
      Step cfg s (s.closeNet.frameDone t th.call .closedUnexpectedly)
  | subscribe {t : Nat} {th : Thread} {d} {a} {o} {last : Nat} {f : Frame} {id : Bytes} {rt} (ht : s.threads[t]? = some th) (hpc : th.pc = .start)
      (hcall : th.call = .subscribe d a o) (hm : s.mutex = none) (hc : s.closed = false)
      (hf : createSubscribeFrame s.lastId d a o = some (last, f, id, rt)) :
      Step cfg s (({ s with lastId := last, mutex := some t,
                            subs := s.subs ++ [Sub.new id rt s.chans.length] }.newChan (.sub s.subs.length)).goto t
                    (.push ⟨f, some s.chans.length⟩))
  | unsubOption {t : Nat} {th : Thread} {i : Nat} {o} {b : Sub} (ht : s.threads[t]? = some th) (hpc : th.pc = .start)
      (hcall : th.call = .unsubscribe i o) (hb : s.subs[i]? = some b) (hst : b.state = .active)
      (hf : createUnsubscribeFrame b.id b.replyTo o = none) :
      Step cfg s ((s.setSub i { b with state := .closing }).ret t .optionError)
  | unsubGo {t : Nat} {th : Thread} {i : Nat} {o} {b : Sub} {f : Frame} (ht : s.threads[t]? = some th) (hpc : th.pc = .start)
      (hcall : th.call = .unsubscribe i o) (hb : s.subs[i]? = some b) (hst : b.state = .active)
      (hf : createUnsubscribeFrame b.id b.replyTo o = some f) :
      Step cfg s ((s.setSub i { b with state := .closing }).goto t (.lock f))
  | unsubDone {t : Nat} {th : Thread} {i : Nat} {o} {b : Sub} (ht : s.threads[t]? = some th) (hpc : th.pc = .start)
      (hcall : th.call = .unsubscribe i o) (hb : s.subs[i]? = some b) (hst : b.state ≠ .active) :
      Step cfg s (s.ret t .completedSubscription)
  | mustCrash {t : Nat} {th : Thread} (ht : s.threads[t]? = some th) (hpc : th.pc = .start) (hcall : th.call = .mustDisconnect)
      (hm : s.mutex = none) (hc : s.closed = false) (hw : s.writeClosed = true) : Step cfg s (s.crash .closeWriteCh)
  | mustGo {t : Nat} {th : Thread} (ht : s.threads[t]? = some th) (hpc : th.pc = .start) (hcall : th.call = .mustDisconnect)
      (hm : s.mutex = none) (hc : s.closed = false) (hw : s.writeClosed = false) :
      Step cfg s ({ s with writeClosed := true }.markClosed.ret t .ok)
  | pushCrash {t : Nat} {th : Thread} {r : Req} (ht : s.threads[t]? = some th) (hpc : th.pc = .push r) (hw : s.writeClosed = true) :
      Step cfg s (s.crash .sendWriteCh)
  | pushWait {t : Nat} {th : Thread} {r : Req} {n : Nat} (ht : s.threads[t]? = some th) (hpc : th.pc = .push r) (hw : s.writeClosed = false)
      (hcap : s.writeCh.length < cfg.writeCap) (hr : r.chan = some n)
      (hcall : (∃ d c b o, th.call = .send d c b o) ∨ th.call = .disconnect) :
      Step cfg s ({ s with writeCh := s.writeCh ++ [r], trace := s.trace ++ [Obs.accepted t r] }.goto t (.wait n))
  | pushRet {t : Nat} {th : Thread} {r : Req} {d} {c} {b} {o} (ht : s.threads[t]? = some th) (hpc : th.pc = .push r) (hw : s.writeClosed = false)
      (hcap : s.writeCh.length < cfg.writeCap) (hr : r.chan = none) (hcall : th.call = .send d c b o) :
      Step cfg s ({ s with writeCh := s.writeCh ++ [r], trace := s.trace ++ [Obs.accepted t r] }.unlock.ret t .ok)
  | pushSub {t : Nat} {th : Thread} {r : Req} {n : Nat} {d} {a} {o} (ht : s.threads[t]? = some th) (hpc : th.pc = .push r) (hw : s.writeClosed = false)
      (hcap : s.writeCh.length < cfg.writeCap) (hr : r.chan = some n) (hcall : th.call = .subscribe d a o) :
      Step cfg s (({ s with writeCh := s.writeCh ++ [r], trace := s.trace ++ [Obs.accepted t r] }.handOut n).unlock.ret
        t .ok)
  | pushFrameWait {t : Nat} {th : Thread} {r : Req} {n : Nat} (ht : s.threads[t]? = some th) (hpc : th.pc = .push r) (hw : s.writeClosed = false)
      (hcap : s.writeCh.length < cfg.writeCap) (hr : r.chan = some n)
      (hcall : (∃ f, th.call = .frame f) ∨ ∃ i o, th.call = .unsubscribe i o) :
      Step cfg s ({ s with writeCh := s.writeCh ++ [r], trace := s.trace ++ [Obs.accepted t r] }.unlock.goto t (.wait n))
  | pushFrameRet {t : Nat} {th : Thread} {r : Req} (ht : s.threads[t]? = some th) (hpc : th.pc = .push r) (hw : s.writeClosed = false)
      (hcap : s.writeCh.length < cfg.writeCap) (hr : r.chan = none)
      (hcall : (∃ f, th.call = .frame f) ∨ ∃ i o, th.call = .unsubscribe i o) :
      Step cfg s ({ s with writeCh := s.writeCh ++ [r], trace := s.trace ++ [Obs.accepted t r] }.unlock.frameDone t
        th.call .ok)
  | nilResponse {t : Nat} {th : Thread} {n : Nat} (ht : s.threads[t]? = some th) (hpc : th.pc = .wait n) (hc : s.chanClosed n = true)
      (hcall : (∃ d c b o, th.call = .send d c b o) ∨ th.call = .disconnect) : Step cfg s (s.crash .nilResponse)
  | waitClosed {t : Nat} {th : Thread} {n : Nat} (ht : s.threads[t]? = some th) (hpc : th.pc = .wait n) (hc : s.chanClosed n = true)
      (hcall : ¬ ((∃ d c b o, th.call = .send d c b o) ∨ th.call = .disconnect)) :
      Step cfg s (s.frameDone t th.call .closedUnexpectedly)
  | unsub {t : Nat} {th : Thread} {i : Nat} {o} {b : Sub} {s' : Sys} (ht : s.threads[t]? = some th) (hcall : th.call = .unsubscribe i o)
      (hb : s.subs[i]? = some b) (hpc : th.holds = false) (h : s.unsub cfg t th i b = some s') : Step cfg s s'
  | sendTimeout {t : Nat} {th : Thread} {r : Req} {d} {c} {b} {o} (ht : s.threads[t]? = some th) (hpc : th.pc = .push r)
      (hcall : th.call = .send d c b o) (hcfg : cfg.sendTimeout = true) : Step cfg s (s.unlock.ret t .sendTimeout)
  | receiptTimeout {t : Nat} {th : Thread} {n : Nat} {d} {c} {b} {o} (ht : s.threads[t]? = some th) (hpc : th.pc = .wait n)
      (hcall : th.call = .send d c b o) (hcfg : cfg.receiptTimeout = true) : Step cfg s (s.unlock.ret t .receiptTimeout)
  | disconnectTimeout {t : Nat} {th : Thread} {n : Nat} (ht : s.threads[t]? = some th) (hpc : th.pc = .wait n)
      (hcall : th.call = .disconnect) (hcfg : cfg.disconnectTimeout = true) :
      Step cfg s (s.markClosed.unlock.ret t .disconnectTimeout)
  | frameTimeout {t : Nat} {th : Thread} {n : Nat} (ht : s.threads[t]? = some th) (hpc : th.pc = .wait n)
      (hcall : (∃ f, th.call = .frame f) ∨ ∃ i o, th.call = .unsubscribe i o) (hcfg : cfg.writeTimeout = true) :
      Step cfg s (s.frameDone t th.call .closedUnexpectedly)
  | selectTimeout {t : Nat} {th : Thread} {i : Nat} {o} (ht : s.threads[t]? = some th) (hpc : th.pc = .select)
      (hcall : th.call = .unsubscribe i o) (hcfg : cfg.unsubTimeout = true) : Step cfg s (s.goto t .timedOut)
  | helper {t : Nat} {th : Thread} {i : Nat} {o} {b : Sub} {s' : Sys} (ht : s.threads[t]? = some th) (hcall : th.call = .unsubscribe i o)
      (hb : s.subs[i]? = some b) (h : s.helper t = some s') : Step cfg s s'
  | net {f : Option Frame} (hr : s.readDone = false) (hcap : s.readCh.length < cfg.readCap) :
      Step cfg s ({ s with readCh := s.readCh ++ [f] }.log (.read f))
  | netErr (hr : s.readDone = false) : Step cfg s { s with readDone := true }
  | fail {x} {order} (hl : s.loop = .select) (hp : order.isPerm (s.channels.map (·.2)) = true) (hx : x ∈ ownTexts) :
      Step cfg s { s with loop := .fail (errFrame x) order }
  | readSkip {x} {rest} (hl : s.loop = .select) (hr : s.readCh = x :: rest) (hs : Skipped s x) :
      Step cfg s { s with readCh := rest, trace := s.trace ++ [.took x] }
  | readReceipt {f : Frame} {rest} {id : Bytes} {n : Nat} (hl : s.loop = .select) (hr : s.readCh = some f :: rest) (hf : f.command = Cmd.receipt)
      (hid : f.header.contains Hdr.receiptId = some id) (hn : s.channels.get? id = some n) :
      Step cfg s { s with readCh := rest, trace := s.trace ++ [.took (some f)], loop := .receipt f id n }
  | readMissing {f : Frame} {rest} {order} (hl : s.loop = .select) (hr : s.readCh = some f :: rest)
      (hf : f.command = Cmd.receipt) (hid : f.header.contains Hdr.receiptId = none)
      (hp : order.isPerm (s.channels.map (·.2)) = true) :
      Step cfg s { s with readCh := rest, trace := s.trace ++ [.took (some f)],
                          loop := .fail (errFrame b!"missing receipt-id") order }
  | readErr {f : Frame} {rest} {order} (hl : s.loop = .select) (hr : s.readCh = some f :: rest) (hf : f.command = Cmd.error)
      (hp : order.isPerm (s.channels.map (·.2)) = true) :
      Step cfg s { s with readCh := rest, trace := s.trace ++ [.took (some f)], loop := .errs f order }
  | readMessage {f : Frame} {rest} {id : Bytes} {n : Nat} (hl : s.loop = .select) (hr : s.readCh = some f :: rest) (hf : f.command = Cmd.message)
      (hid : f.header.contains Hdr.subscription = some id) (hn : s.channels.get? id = some n) :
      Step cfg s { s with readCh := rest, trace := s.trace ++ [.took (some f)], loop := .message f n }
  | takeQuiet {r : Req} {rest} (hl : s.loop = .select) (hw : s.writeCh = r :: rest)
      (ho : (handleWrite s.channels r).2.2 = none) : Step cfg s (s.takeReq r rest).1
  | takeSent {r : Req} {rest} {f : Frame} (hl : s.loop = .select) (hw : s.writeCh = r :: rest)
      (ho : (handleWrite s.channels r).2.2 = some f) : Step cfg s ((s.takeReq r rest).1.log (.sent f))
  | takeFail {r : Req} {rest} {f : Frame} {order} (hl : s.loop = .select) (hw : s.writeCh = r :: rest)
      (ho : (handleWrite s.channels r).2.2 = some f)
      (hp : order.isPerm ((handleWrite s.channels r).1.map (·.2)) = true) :
      Step cfg s { (s.takeReq r rest).1.log (.failed f) with loop := .fail (errFrame b!"write error") order }
  | beat (hl : s.loop = .select) : Step cfg s (s.log .beat)
  | deliverCrash {n : Nat} (hc : s.chanClosed n = true)
      (hl : (∃ f id, s.loop = .receipt f id n) ∨ (∃ f, s.loop = .message f n) ∨ (∃ f l, s.loop = .errs f (n :: l)) ∨
        ∃ f l, s.loop = .fail f (n :: l)) : Step cfg s (s.crash .sendChan)
  | giveReceipt {f : Frame} {id : Bytes} {n : Nat} {b} {s1 : Sys} (hl : s.loop = .receipt f id n) (hc : s.chanClosed n = false)
      (h1 : s.handOver n f b = some s1) :
      Step cfg s ({ s1 with channels := s1.channels.del id, loop := .select }.closeChan n)
  | giveMessage {f : Frame} {n : Nat} {b} {s1 : Sys} (hl : s.loop = .message f n) (hc : s.chanClosed n = false)
      (h1 : s.handOver n f b = some s1) : Step cfg s { s1 with loop := .select }
  | giveErr {f : Frame} {n : Nat} {l} {b} {s1 : Sys} (hl : s.loop = .errs f (n :: l)) (hc : s.chanClosed n = false)
      (h1 : s.handOver n f b = some s1) : Step cfg s ({ s1 with loop := .errs f l }.closeChan n)
  | giveFail {f : Frame} {n : Nat} {l} {b} {s1 : Sys} (hl : s.loop = .fail f (n :: l)) (hc : s.chanClosed n = false)
      (h1 : s.handOver n f b = some s1) : Step cfg s { s1 with loop := .fail f l }
  | finErrs {f : Frame} (hl : s.loop = .errs f []) (hm : s.mutex = none) : Step cfg s { s with loop := .done }.markClosed
  | finClosed {f : Frame} (hl : s.loop = .fail f []) (hm : s.mutex = none) (hc : s.closed = true) :
      Step cfg s { s with loop := .done }
  | finCrash {f : Frame} (hl : s.loop = .fail f []) (hm : s.mutex = none) (hc : s.closed = false) (hw : s.writeClosed = true) :
      Step cfg s (s.crash .closeWriteCh)
  | finFail {f : Frame} (hl : s.loop = .fail f []) (hm : s.mutex = none) (hc : s.closed = false) (hw : s.writeClosed = false) :
      Step cfg s { s with loop := .done, writeClosed := true }.markClosed
  | sub {i : Nat} {s' : Sys} (h : s.subStep i = some s') : Step cfg s s'
  | take {i : Nat} {b : Sub} {m} {rest} (hb : s.subs[i]? = some b) (hbuf : b.buf = m :: rest) : Step cfg s (s.setSub i { b with buf := rest })
  | tick : Step cfg s { s with lastId := (allocateId s.lastId).1 }

theorem isSome_false {α : Type} {x : Option α} (h : ¬ x.isSome = true) : x = none := by
  cases x <;> simp_all

theorem step_frameEnter {cfg : Cfg} {s s' : Sys} {t : Nat} {th : Thread} {f : Frame}
    (ht : s.threads[t]? = some th) (hpc : (th.pc = .start ∧ th.call = .frame f) ∨ th.pc = .lock f)
    (h : s.frameEnter t th.call f = some s') : Step cfg s s' := by
  unfold Sys.frameEnter at h
  have ha : Acquire s th f s.lastId := by
    rcases hpc with ⟨h1, h2⟩ | h1
    · exact .frame h1 h2
    · exact .lock h1
  split at h
  · cases h
  rename_i hm
  replace hm := isSome_false hm
  split at h
  · simp only [Option.some.injEq] at h
    subst h
    refine .frameClosed ht hm (by assumption) ?_
    rcases hpc with ⟨h1, h2⟩ | h1
    · exact .inl ⟨h1, f, h2⟩
    · exact .inr ⟨f, h1⟩
  rename_i hc
  split at h
  · simp only [Option.some.injEq] at h
    subst h
    exact .acquire ht hm (by simpa using hc) ha (by assumption)
  · simp only [Option.some.injEq] at h
    subst h
    exact .acquireBare ht hm (by simpa using hc) ha (isSome_false (by assumption))

theorem step_begin {cfg : Cfg} {s s' : Sys} {t : Nat} {th : Thread}
    (ht : s.threads[t]? = some th) (hpc : th.pc = .start) (h : s.begin t th.call = some s') : Step cfg s s' := by
  cases hcall : th.call with
  | frame f =>
    have h' : s.frameEnter t th.call f = some s' := by rw [hcall] at h ⊢; exact h
    exact step_frameEnter ht (.inl ⟨hpc, hcall⟩) h'
  | send d c b o =>
    rw [hcall] at h
    simp only [Sys.begin] at h
    repeat' split at h
    all_goals first
      | contradiction
      | simp only [Option.some.injEq] at h
    all_goals subst h
    · exact .early (nc := s.netClosed) ht hpc (isSome_false (by assumption)) hcall (.sendClosed (by assumption))
    · exact .early (nc := s.netClosed) ht hpc (isSome_false (by assumption)) hcall (.sendOption (by simp_all) (by assumption))
    · exact .acquire ht (isSome_false (by assumption)) (by simp_all) (.send hpc hcall (by assumption)) (by assumption)
    · exact .acquireBare ht (isSome_false (by assumption)) (by simp_all) (.send hpc hcall (by assumption))
        (isSome_false (by assumption))
  | subscribe d a o =>
    rw [hcall] at h
    simp only [Sys.begin] at h
    repeat' split at h
    all_goals first
      | contradiction
      | simp only [Option.some.injEq] at h
    all_goals subst h
    · exact .early (nc := true) ht hpc (isSome_false (by assumption)) hcall (.subClosed (by assumption))
    · exact .early (nc := s.netClosed) ht hpc (isSome_false (by assumption)) hcall (.subOption (by simp_all) (by assumption))
    · exact .subscribe ht hpc hcall (isSome_false (by assumption)) (by simp_all) (by assumption)
  | unsubscribe i o =>
    rw [hcall] at h
    simp only [Sys.begin] at h
    repeat' split at h
    all_goals first
      | contradiction
      | simp only [Option.some.injEq] at h
    all_goals subst h
    · exact .unsubOption ht hpc hcall (by assumption) (by assumption) (by assumption)
    · exact .unsubGo ht hpc hcall (by assumption) (by assumption) (by assumption)
    · exact .unsubDone ht hpc hcall (by assumption) (by assumption)
  | disconnect =>
    rw [hcall] at h
    simp only [Sys.begin] at h
    repeat' split at h
    all_goals first
      | contradiction
      | simp only [Option.some.injEq] at h
    all_goals subst h
    · exact .early (nc := s.netClosed) ht hpc (isSome_false (by assumption)) hcall (.disconnect (by assumption))
    · exact .acquire ht (isSome_false (by assumption)) (by simp_all) (.disconnect hpc hcall) rfl
  | mustDisconnect =>
    rw [hcall] at h
    simp only [Sys.begin] at h
    repeat' split at h
    all_goals first
      | contradiction
      | simp only [Option.some.injEq] at h
    all_goals subst h
    · exact .early (nc := s.netClosed) ht hpc (isSome_false (by assumption)) hcall (.mustDisconnect (by assumption))
    · exact .mustCrash ht hpc hcall (isSome_false (by assumption)) (by simp_all) (by assumption)
    · exact .mustGo ht hpc hcall (isSome_false (by assumption)) (by simp_all) (by simp_all)

theorem step_push {cfg : Cfg} {s s' : Sys} {t : Nat} {th : Thread} {r : Req} (ht : s.threads[t]? = some th)
    (hpc : th.pc = .push r) (h : s.push cfg t th.call r = some s') : Step cfg s s' := by
  unfold Sys.push at h
  split at h
  · simp only [Option.some.injEq] at h; subst h; exact .pushCrash ht hpc (by assumption)
  rename_i hw
  have hw : s.writeClosed = false := by simpa using hw
  split at h
  · rename_i hcap
    dsimp only at h
    split at h
    all_goals first
      | contradiction
      | simp only [Option.some.injEq] at h
    all_goals subst h
    all_goals rename_i hcall hr
    · exact .pushWait ht hpc hw hcap hr (.inl ⟨_, _, _, _, hcall⟩)
    · exact .pushWait ht hpc hw hcap hr (.inr hcall)
    · exact .pushRet ht hpc hw hcap hr hcall
    · exact .pushSub ht hpc hw hcap hr hcall
    · exact .pushFrameWait ht hpc hw hcap hr (.inl ⟨_, hcall⟩)
    · exact .pushFrameWait ht hpc hw hcap hr (.inr ⟨_, _, hcall⟩)
    · exact .pushFrameRet ht hpc hw hcap hr (.inl ⟨_, hcall⟩)
    · exact .pushFrameRet ht hpc hw hcap hr (.inr ⟨_, _, hcall⟩)
  · cases h

theorem step_thread {cfg : Cfg} {s s' : Sys} {t : Nat} (h : s.thread cfg t = some s') : Step cfg s s' := by
  unfold Sys.thread at h
  split at h
  · cases h
  rename_i th ht
  split at h
  · exact step_begin ht (by assumption) h
  · exact step_frameEnter ht (.inr (by assumption)) h
  · exact step_push ht (by assumption) h
  · rename_i n hpc
    unfold Sys.waitClosed at h
    repeat' split at h
    all_goals first
      | contradiction
      | simp only [Option.some.injEq] at h
    all_goals subst h
    · exact .nilResponse ht hpc (by assumption) (.inl ⟨_, _, _, _, by assumption⟩)
    · exact .nilResponse ht hpc (by assumption) (.inr (by assumption))
    · rename_i h1 h2
      refine .waitClosed ht hpc (by assumption) ?_
      rintro (⟨_, _, _, _, h⟩ | h)
      · exact h1 _ _ _ _ h
      · exact h2 h
  · cases h
  · repeat' split at h
    all_goals first
      | contradiction
      | exact .unsub ht (by assumption) (by assumption) (by grind [Thread.holds]) h

theorem step_timeout {cfg : Cfg} {s s' : Sys} {t : Nat} (h : s.timeout cfg t = some s') : Step cfg s s' := by
  unfold Sys.timeout at h
  split at h
  · cases h
  rename_i th ht
  repeat' split at h
  all_goals first
    | contradiction
    | simp only [Option.some.injEq] at h
  all_goals subst h
  · exact .sendTimeout ht (by assumption) (by assumption) (by assumption)
  · exact .receiptTimeout ht (by assumption) (by assumption) (by assumption)
  · exact .disconnectTimeout ht (by assumption) (by assumption) (by assumption)
  · exact .frameTimeout ht (by assumption) (.inl ⟨_, by assumption⟩) (by assumption)
  · exact .frameTimeout ht (by assumption) (.inr ⟨_, _, by assumption⟩) (by assumption)
  · exact .selectTimeout ht (by assumption) (by assumption) (by assumption)

theorem step_failWith {cfg : Cfg} {s s' : Sys} {x : Bytes} {o : List Nat} (hl : s.loop = .select) (hx : x ∈ ownTexts)
    (h : s.failWith x o = some s') : Step cfg s s' := by
  unfold Sys.failWith at h
  split at h
  · simp only [Option.some.injEq] at h; subst h; exact .fail hl (by assumption) hx
  · cases h

theorem step_loopRead {cfg : Cfg} {s s' : Sys} {o : List Nat} (hl : s.loop = .select) (h : s.loopRead o = some s') :
    Step cfg s s' := by
  unfold Sys.loopRead at h
  split at h
  · split at h
    · exact step_failWith hl (by decide) h
    · cases h
  · rename_i rest hr
    simp only [Option.some.injEq] at h
    subst h
    exact .readSkip hl hr (by intro f hf; cases hf)
  · rename_i f rest hr
    dsimp only at h
    split at h
    · rename_i hf
      split at h
      · rename_i id hid
        split at h
        · rename_i n hn
          simp only [Option.some.injEq] at h
          subst h
          exact .readReceipt hl hr hf hid hn
        · rename_i hn
          simp only [Option.some.injEq] at h
          subst h
          refine .readSkip hl hr ?_
          intro g hg
          cases hg
          refine ⟨by rw [hf]; decide, fun _ => ⟨id, hid, hn⟩, fun hm => ?_⟩
          rw [hf] at hm
          exact absurd hm (by decide)
      · rename_i hid
        unfold Sys.failWith at h
        split at h
        · simp only [Option.some.injEq] at h
          subst h
          exact .readMissing hl hr hf hid (by assumption)
        · cases h
    · rename_i hnr
      split at h
      · rename_i hf
        split at h
        · simp only [Option.some.injEq] at h
          subst h
          exact .readErr hl hr hf (by assumption)
        · cases h
      · rename_i hne
        split at h
        · rename_i hf
          split at h
          · rename_i id hid
            split at h
            · rename_i n hn
              simp only [Option.some.injEq] at h
              subst h
              exact .readMessage hl hr hf hid hn
            · rename_i hn
              simp only [Option.some.injEq] at h
              subst h
              refine .readSkip hl hr ?_
              intro g hg
              cases hg
              refine ⟨hne, fun h => absurd h hnr, fun _ id' hid' => ?_⟩
              rw [hid] at hid'
              cases hid'
              exact hn
          · rename_i hid
            simp only [Option.some.injEq] at h
            subst h
            refine .readSkip hl hr ?_
            intro g hg
            cases hg
            refine ⟨hne, fun h => absurd h hnr, fun _ id' hid' => ?_⟩
            rw [hid] at hid'
            cases hid'
        · rename_i hnm
          simp only [Option.some.injEq] at h
          subst h
          refine .readSkip hl hr ?_
          intro g hg
          cases hg
          exact ⟨hne, fun h => absurd h hnr, fun h => absurd h hnm⟩

theorem step_loopWrite {cfg : Cfg} {s s' : Sys} {k : Bool} {o : List Nat} (hl : s.loop = .select)
    (h : s.loopWrite k o = some s') : Step cfg s s' := by
  unfold Sys.loopWrite at h
  split at h
  · split at h
    · exact step_failWith hl (by decide) h
    · cases h
  · rename_i r rest hw
    have h2 : (s.takeReq r rest).2 = (handleWrite s.channels r).2.2 := rfl
    have h3 : (s.takeReq r rest).1.channels = (handleWrite s.channels r).1 := by
      unfold Sys.takeReq
      dsimp only
      split
      · unfold Sys.closeChan; split <;> rfl
      · rfl
    rcases htr : s.takeReq r rest with ⟨s1, _ | f⟩
    all_goals rw [htr] at h h2 h3
    all_goals dsimp only at h h2 h3
    · simp only [Option.some.injEq] at h
      subst h
      have := Step.takeQuiet (cfg := cfg) hl hw h2.symm
      rw [htr] at this
      exact this
    · repeat' split at h
      · cases h
      · simp only [Option.some.injEq] at h
        subst h
        have := Step.takeSent (cfg := cfg) hl hw h2.symm
        rw [htr] at this
        exact this
      · unfold Sys.failWith at h
        split at h
        · simp only [Option.some.injEq] at h
          subst h
          have := Step.takeFail (cfg := cfg) (order := o) hl hw h2.symm (by rw [← h3]; assumption)
          rw [htr] at this
          exact this
        · cases h

theorem step_deliver {cfg : Cfg} {s s' : Sys} {b : Bool} (h : s.deliver b = some s') : Step cfg s s' := by
  unfold Sys.deliver at h
  repeat' split at h
  all_goals first
    | contradiction
    | (simp only [Option.some.injEq] at h; subst h)
    | (obtain ⟨s1, h1, rfl⟩ := Option.map_eq_some_iff.1 h)
  · exact .deliverCrash (by assumption) (.inl ⟨_, _, by assumption⟩)
  · exact .giveReceipt (by assumption) (by simp_all) h1
  · exact .deliverCrash (by assumption) (.inr (.inl ⟨_, by assumption⟩))
  · exact .giveMessage (by assumption) (by simp_all) h1
  · exact .deliverCrash (by assumption) (.inr (.inr (.inl ⟨_, _, by assumption⟩)))
  · exact .giveErr (by assumption) (by simp_all) h1
  · exact .deliverCrash (by assumption) (.inr (.inr (.inr ⟨_, _, by assumption⟩)))
  · exact .giveFail (by assumption) (by simp_all) h1

theorem step_cases {cfg : Cfg} {s s' : Sys} {e : Ev} (h : s.step cfg e = some s') : s.crashed = none ∧ Step cfg s s' := by
  unfold Sys.step at h
  split at h
  · cases h
  rename_i hc
  refine ⟨isSome_false hc, ?_⟩
  cases e with
  | thread t => exact step_thread h
  | timeout t => exact step_timeout h
  | helper t =>
    dsimp only at h
    have h' := h
    unfold Sys.helper at h'
    repeat' split at h'
    all_goals first
      | contradiction
      | exact .helper (by assumption) (by assumption) (by assumption) h
  | deliver b => exact step_deliver h
  | finish =>
    dsimp only [Sys.finish] at h
    repeat' split at h
    all_goals first
      | contradiction
      | simp only [Option.some.injEq] at h
    all_goals subst h
    · exact .finErrs (by assumption) (isSome_false (by assumption))
    · exact .finClosed (by assumption) (isSome_false (by assumption)) (by assumption)
    · exact .finCrash (by assumption) (isSome_false (by assumption)) (by simp_all) (by assumption)
    · exact .finFail (by assumption) (isSome_false (by assumption)) (by simp_all) (by simp_all)
  | sub i => exact .sub h
  | loopRead o =>
    dsimp only at h
    split at h
    · exact step_loopRead (by assumption) h
    · cases h
  | loopWrite k o =>
    dsimp only at h
    split at h
    · exact step_loopWrite (by assumption) h
    · cases h
  | loopTimeout o =>
    dsimp only at h
    split at h
    · exact step_failWith (by simp_all) (by decide) h
    · cases h
  | loopBeat k o =>
    dsimp only [Sys.loopBeat] at h
    repeat' split at h
    all_goals first
      | contradiction
      | exact step_failWith (by assumption) (by decide) h
      | (simp only [Option.some.injEq] at h; subst h; exact .beat (by assumption))
  | call c =>
    dsimp only at h
    split at h
    · simp only [Option.some.injEq] at h
      subst h
      exact .call c (by assumption)
    · cases h
  | net f =>
    dsimp only at h
    repeat' split at h
    all_goals first
      | contradiction
      | (simp only [Option.some.injEq] at h; subst h; exact .net (by simp_all) (by assumption))
  | netErr =>
    dsimp only at h
    split at h
    · cases h
    · simp only [Option.some.injEq] at h; subst h; exact .netErr (by simp_all)
  | take i =>
    dsimp only at h
    repeat' split at h
    all_goals first
      | contradiction
      | (simp only [Option.some.injEq] at h; subst h; exact .take (by assumption) (by assumption))
  | tick => simp only [Option.some.injEq] at h; subst h; exact .tick

end Stomp.Client
