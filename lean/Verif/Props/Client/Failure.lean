import Verif.Proofs.Client.Outcome
import Verif.Props.Client.Unsubscribe
/-!
# C26, C27: late answers, ERROR frames and the loss of the connection
-/
namespace Stomp.Client
open Stomp

namespace Spec

/-- `processLoop` is at a statement `ch <- f`, `ch` being response channel `n`. -/
def Sending (s : Sys) (f : Frame) (n : Nat) : Prop :=
  (∃ id, s.loop = .receipt f id n) ∨ s.loop = .message f n ∨ (∃ l, s.loop = .errs f (n :: l)) ∨ ∃ l, s.loop = .fail f (n :: l)

/-- `processLoop` has taken an ERROR frame, or has found the connection lost, or has returned. -/
def Ending (s : Sys) : Prop := (∃ f l, s.loop = .errs f l) ∨ (∃ f l, s.loop = .fail f l) ∨ s.loop = .done

/-- What `processLoop` has done so far. -/
def loopLog (s : Sys) : List Obs :=
  s.trace.filter fun o => match o with
    | .taken _ | .sent _ | .failed _ | .beat | .took _ => true
    | _ => false

/-- Whether the configuration has a timer for the receipt of this call. -/
def timer (cfg : Cfg) : Call → Bool
  | .send .. => cfg.receiptTimeout
  | .disconnect => cfg.disconnectTimeout
  | _ => cfg.writeTimeout

/-- The call gave up waiting because of its timer, or got a MESSAGE in place of the receipt; `Unsubscribe` may be on
its way to return. -/
def Left (th : Thread) : Prop :=
  (∃ r, th.pc = .ret r ∧ (r = .receiptTimeout ∨ r = .disconnectTimeout ∨ r = .closedUnexpectedly ∨
    ∃ f, r = .response f ∧ f.command = Cmd.message)) ∨
  ((∃ i o, th.call = .unsubscribe i o) ∧ ∀ n, th.pc ≠ .wait n)

/-- An error on the channel `C` of a subscription. -/
def IsError (m : CMsg) : Prop := ∀ f, m ≠ .msg f

end Spec

theorem sending_iff {s : Sys} {f : Frame} {n : Nat} : Spec.Sending s f n ↔ AtSend s f n := Iff.rfl

theorem ending_iff {s : Sys} : Spec.Ending s ↔ s.loop.ended = true := by
  unfold Spec.Ending
  cases h : s.loop <;> simp [LoopPc.ended]

theorem timer_eq (cfg : Cfg) (c : Call) : Spec.timer cfg c = cfg.arms c := by cases c <;> rfl

theorem isError_iff {m : CMsg} : Spec.IsError m ↔ m.isErr = true := by
  unfold Spec.IsError
  cases m <;> simp [CMsg.isErr]

theorem loopLog_rests {s s' : Sys} (h : Rests s s') : Spec.loopLog s' = Spec.loopLog s := by
  obtain ⟨_, l, h1, h2⟩ := h
  unfold Spec.loopLog
  rw [h1, List.filter_append]
  refine (congrArg _ (List.filter_eq_nil_iff.2 fun o ho => ?_)).trans (List.append_nil _)
  have := h2 o ho
  cases o <;> first | (cases this; done) | exact (fun e => by cases e)

theorem left_of {th : Thread} (h : th.left) : Spec.Left th := by
  have key : ∀ r : Res, (r = .receiptTimeout ∨ r = .disconnectTimeout ∨ r = .closedUnexpectedly) →
      (th.pc = .ret r ∨ ∃ f, th.pc = .ret (.response f) ∧ f.command = Cmd.message) → Spec.Left th := by
    rintro r hr (h | ⟨f, h, hf⟩)
    · exact .inl ⟨r, h, by rcases hr with h | h | h <;> simp [h]⟩
    · exact .inl ⟨_, h, .inr (.inr (.inr ⟨f, rfl, hf⟩))⟩
  unfold Thread.left at h
  split at h
  · exact key _ (.inl rfl) h
  · exact key _ (.inr (.inl rfl)) h
  · rename_i i o hc
    exact .inr ⟨⟨i, o, hc⟩, fun n e => by rw [e] at h; cases h⟩
  · exact key _ (.inr (.inr rfl)) h

/-! ## C26 -/

/-- **C26 fails, in general**: once `processLoop` is at the send of a frame to a call that has returned without
receiving, it never gets past this statement: in every continuation it takes no request, reads no frame and writes
nothing, every other call that waits for its receipt (without a timer) keeps waiting, and so does every subscription. -/
theorem C26_stuck {cfg : Cfg} {es' : List Ev} {s s' : Sys} {t n : Nat} {th : Thread} {res : Res} {f : Frame}
    (ht : s.threads[t]? = some th) (hret : th.pc = .ret res)
    (hn : s.chans[n]? = some ⟨.caller t, false⟩) (hs : Spec.Sending s f n) (h' : s.run cfg es' = some s') :
    s'.loop = s.loop ∧ Spec.loopLog s' = Spec.loopLog s ∧
    (∀ (u : Nat) (thu : Thread) (m : Nat) (o : Owner), s.threads[u]? = some thu → thu.pc = .wait m → s.chans[m]? = some ⟨o, false⟩ →
      Spec.timer cfg thu.call = false → ∃ thu', s'.threads[u]? = some thu' ∧ thu'.pc = .wait m) ∧
    (∀ (i : Nat) (b : Sub) (o : Owner), s.subs[i]? = some b → b.rl = .recv → s.chans[b.chan]? = some ⟨o, false⟩ →
      ∃ b' : Sub, s'.subs[i]? = some b' ∧ b'.rl = .recv) := by
  have hg : Gone t n s := ⟨⟨f, hs⟩, hn, th, ht, by rw [hret]; rfl⟩
  have hr := (gone_run hg h').2
  refine ⟨hr.1, loopLog_rests hr, ?_, ?_⟩
  · intro u thu m o hu hm ho harm
    obtain ⟨_, thu', hu', h1 | ⟨_, h1⟩⟩ := hopeless_run (u := u) (m := m) hg ⟨⟨o, ho⟩, thu, hu, .inl hm⟩ h'
    · exact ⟨thu', hu', h1⟩
    · obtain ⟨th2, h2, hc⟩ := (ext_run h').threads u thu hu
      rw [hu'] at h2; cases h2
      rw [hc, ← timer_eq, harm] at h1; cases h1
  · intro i b o hb hrl ho
    obtain ⟨_, b', hb', _, h1⟩ := unserved_run (i := i) (m := b.chan) hg ⟨⟨o, ho⟩, b, hb, rfl, hrl⟩ h'
    exact ⟨b', hb', h1⟩

/-- **C26 fails, in general**: this is where the late RECEIPT of a call leads, that gave up waiting for it: the call is
still registered. -/
theorem C26_late {cfg : Cfg} {s : Sys} {t n : Nat} {k : Bytes} {g : Frame} {rest : List (Option Frame)}
    (hp : s.crashed = none) (hl : s.loop = .select) (hk : s.channels.get? k = some n)
    (hq : s.readCh = some g :: rest) (hg : Spec.ReceiptFor g k) (hn : s.chans[n]? = some ⟨.caller t, false⟩) :
    ∃ s', s.step cfg (.loopRead []) = some s' ∧ Spec.Sending s' g n ∧ s'.chans[n]? = some ⟨.caller t, false⟩ ∧
      s'.threads = s.threads := by
  refine ⟨{ s with readCh := rest, trace := s.trace ++ [.took (some g)], loop := .receipt g k n }, ?_, .inl ⟨k, rfl⟩, hn, rfl⟩
  simp only [Sys.step, hp, Option.isSome_none, Bool.false_eq_true, if_false, hl, if_true, Sys.loopRead, hq, hg.1, hg.2, hk]

namespace Ex

/-- Only `Send` has a timer. -/
def cfgReceipt : Cfg :=
  { readCap := 20, writeCap := 20, sendTimeout := false, receiptTimeout := true, disconnectTimeout := false,
    unsubTimeout := false, readTimeout := false, writeTimeout := false }

/-- `Transaction.Send` with `SendOpt.Receipt`. -/
def txFrame : Frame := Frame.new Cmd.send [(Hdr.destination, b!"/q"), (Hdr.receipt, b!"3"), (Hdr.transaction, b!"7")]
def txSend : Call := .frame txFrame

/-- `Send` gives up; a subscription is made, a second call waits for its receipt. -/
def gaveUp : List Ev :=
  [.call receipted, .thread 0, .thread 0, .loopWrite true [], .timeout 0,
   .call (.subscribe b!"/q" .auto []), .thread 1, .thread 1, .loopWrite true [],
   .call txSend, .thread 2, .thread 2, .loopWrite true []]

/-- The first RECEIPT comes late, then the other one, and a message. -/
def late : List Ev :=
  gaveUp ++ [.net (some (receiptFrame b!"1")), .net (some (receiptFrame b!"3")), .net (some (message b!"2" b!"a")), .loopRead []]

/-- The connection is lost. -/
def lost : List Ev := gaveUp ++ [.netErr, .loopRead [0, 1, 2]]

def endLate : Sys := ((Sys.init 0).run cfgReceipt late).getD (Sys.init 0)
theorem late_run : (Sys.init 0).run cfgReceipt late = some endLate := by decide +kernel
def endLostConn : Sys := ((Sys.init 0).run cfgReceipt lost).getD (Sys.init 0)
theorem lostConn_run : (Sys.init 0).run cfgReceipt lost = some endLostConn := by decide +kernel

end Ex

/-- **C26, in full, is false** (late receipt): `Send` has given up. Its RECEIPT arrives, then that of another call. In
no continuation does this call return, nor `processLoop` read another frame or write one. -/
theorem C26_false_late : ∃ es s, (Sys.init 0).run Ex.cfgReceipt es = some s ∧ s.crashed = none ∧
    Spec.Returned s 0 Ex.receipted .receiptTimeout ∧
    Spec.Logged s [.sent Ex.txFrame, .read (some (Ex.receiptFrame b!"1")), .read (some (Ex.receiptFrame b!"3"))] ∧
    ∀ es' s', s.run Ex.cfgReceipt es' = some s' → Spec.loopLog s' = Spec.loopLog s ∧ s'.loop ≠ .done ∧
      ¬ ∃ r, Spec.Returned s' 2 Ex.txSend r := by
  refine ⟨Ex.late, Ex.endLate, Ex.late_run, by decide +kernel,
    ⟨⟨Ex.receipted, .ret .receiptTimeout, .none⟩, by decide +kernel, rfl, rfl⟩, by decide +kernel, ?_⟩
  intro es' s' h'
  obtain ⟨h1, h2, h3, _⟩ := C26_stuck (s := Ex.endLate) (t := 0) (n := 0) (th := ⟨Ex.receipted, .ret .receiptTimeout, .none⟩)
    (f := Ex.receiptFrame b!"1") (by decide +kernel) rfl (by decide +kernel) (.inl ⟨b!"1", by decide +kernel⟩) h'
  refine ⟨h2, by rw [h1]; decide +kernel, ?_⟩
  rintro ⟨r, th', ht', _, hr⟩
  obtain ⟨thu', hu', hw⟩ := h3 2 ⟨Ex.txSend, .wait 2, .none⟩ 2 (.caller 2) (by decide +kernel) rfl (by decide +kernel) rfl
  rw [hu'] at ht'; cases ht'
  rw [hw] at hr; cases hr

/-- **C26, in full, is false** (the connection then fails): `Send` has given up, then the connection is lost. In no
continuation does `processLoop` return, nor the other call, nor does `readLoop` of the subscription get anything. -/
theorem C26_false_fail : ∃ es s, (Sys.init 0).run Ex.cfgReceipt es = some s ∧ s.crashed = none ∧
    Spec.Returned s 0 Ex.receipted .receiptTimeout ∧ s.readDone = true ∧
    ∀ es' s', s.run Ex.cfgReceipt es' = some s' → s'.loop ≠ .done ∧ (¬ ∃ r, Spec.Returned s' 2 Ex.txSend r) ∧
      ∃ b : Sub, s'.subs[0]? = some b ∧ b.rl = .recv := by
  refine ⟨Ex.lost, Ex.endLostConn, Ex.lostConn_run, by decide +kernel,
    ⟨⟨Ex.receipted, .ret .receiptTimeout, .none⟩, by decide +kernel, rfl, rfl⟩, by decide +kernel, ?_⟩
  intro es' s' h'
  obtain ⟨h1, h2, h3, h4⟩ := C26_stuck (s := Ex.endLostConn) (t := 0) (n := 0) (th := ⟨Ex.receipted, .ret .receiptTimeout, .none⟩)
    (f := errFrame b!"connection closed") (by decide +kernel) rfl (by decide +kernel)
    (.inr (.inr (.inr ⟨[1, 2], by decide +kernel⟩))) h'
  refine ⟨by rw [h1]; decide +kernel, ?_, ?_⟩
  · rintro ⟨r, th', ht', _, hr⟩
    obtain ⟨thu', hu', hw⟩ := h3 2 ⟨Ex.txSend, .wait 2, .none⟩ 2 (.caller 2) (by decide +kernel) rfl (by decide +kernel) rfl
    rw [hu'] at ht'; cases ht'
    rw [hw] at hr; cases hr
  · exact h4 0 ((Ex.endLostConn.subs[0]?).getD (Sub.new [] false 0)) (.sub 0) (by decide +kernel) (by decide +kernel) (by decide +kernel)

/-- **C26**, partial: `processLoop` at a send goes on, unless the receiver is a call that has given up (or was answered
by a MESSAGE), or a subscription that has not yet put its last message on `C`.

`_partial`: the second case is the one of C26, see `C26_stuck`. Without SUBSCRIBE frames that ask for a receipt, for
these are registered twice. -/
theorem C26_send_partial {cfg : Cfg} {n : Nat} {es : List Ev} {s : Sys} {f : Frame} {m : Nat}
    (h : (Sys.init n).run cfg es = some s) (hc : s.crashed = none) (hs : Spec.Sending s f m)
    (hd : ∀ t r, .accepted t r ∈ s.trace → r.frame.command = Cmd.subscribe → r.frame.header.contains Hdr.receipt = none) :
    (∃ s', s.step cfg (.deliver true) = some s') ∨
    (∃ (t : Nat) (th : Thread), s.chans[m]? = some ⟨.caller t, false⟩ ∧ s.threads[t]? = some th ∧ Spec.Left th) ∨
    (∃ (i : Nat) (b : Sub) (x : CMsg), s.chans[m]? = some ⟨.sub i, false⟩ ∧ s.subs[i]? = some b ∧ b.rl = .put x) := by
  rcases deliver_ready (cfg := cfg) (full_run h) hc hs (fun t r h1 _ h2 => hd t r (mem_acceptedIn h1) h2) with h1 | ⟨t, th, h1, h2, h3⟩ | h1
  · exact .inl h1
  · exact .inr (.inl ⟨t, th, h1, h2, left_of h3⟩)
  · exact .inr (.inr h1)

/-- **C26**, partial: `processLoop` at its `select` goes on with what it has got from the network and from callers,
whoever has given up.

`_partial`: as before. -/
theorem C26_select_partial {cfg : Cfg} {s : Sys} (hc : s.crashed = none) (hl : s.loop = .select) :
    (s.readCh ≠ [] ∨ s.readDone = true → ∃ order s', s.step cfg (.loopRead order) = some s') ∧
    (s.writeCh ≠ [] ∨ s.writeClosed = true → ∃ order s', s.step cfg (.loopWrite (!s.netClosed) order) = some s') :=
  ⟨fun h => ⟨_, loopRead_ready hc hl h⟩, loopWrite_ready hc hl⟩

-- `C26_late` and `C26_stuck` apply to the state in which the late RECEIPT has arrived.
example : ((Sys.init 0).run Ex.cfgReceipt (Ex.gaveUp ++ [.net (some (Ex.receiptFrame b!"1"))])).map (fun s =>
    (s.crashed, s.loop, AMap.get? s.channels b!"1")) = some (none, .select, some 0) := by decide +kernel
example : ((Sys.init 0).run Ex.cfgReceipt (Ex.gaveUp ++ [.net (some (Ex.receiptFrame b!"1"))])).map (fun s =>
    (s.readCh, s.chans[0]?)) = some ([some (Ex.receiptFrame b!"1")], some ⟨.caller 0, false⟩) := by decide +kernel
-- After a timeout everything is served as long as the receipt does not come: a MESSAGE and the receipt of the other call.
example : ((Sys.init 0).run Ex.cfgReceipt (Ex.gaveUp ++ [.net (some (Ex.message b!"2" b!"a")), .net (some (Ex.receiptFrame b!"3")),
    .loopRead [], .deliver true, .sub 0])).map (fun s => (s.crashed, s.loop, s.subs.map (·.got.length), s.threads.map (·.pc))) =
    some (none, .select, [1], [.ret .receiptTimeout, .ret .ok, .wait 2]) := by decide +kernel
-- A state in which `processLoop` is at a send, the hypothesis of `C26_send_partial`, and each of the three cases.
example : Ex.endLate.loop = .receipt (Ex.receiptFrame b!"1") b!"1" 0 ∧ Ex.endLate.crashed = none := by decide +kernel
example : (Ex.endLate.trace.all fun o => match o with
    | .accepted _ r => !decide (r.frame.command = Cmd.subscribe) || (r.frame.header.contains Hdr.receipt).isNone
    | _ => true) = true := by decide +kernel

/-! ## C27 -/

theorem won_unsub {s : Sys} {t i : Nat} {p : Pc} {h : HPc} (hw : s.won t = some (i, p, h)) :
    ∃ th o, s.threads[t]? = some th ∧ th.call = .unsubscribe i o := by
  unfold Sys.won at hw
  cases ht : s.threads[t]? with
  | none => rw [ht] at hw; cases hw
  | some th =>
    rw [ht] at hw
    simp only [Option.bind_some, Thread.won] at hw
    split at hw
    · rename_i j o hc
      split at hw
      · cases hw
      · cases hw; exact ⟨th, o, rfl, hc⟩
    · cases hw

/-- **C27**, the connection ends up closed: when `processLoop` has returned, the connection is closed, for good
(`C20_stays`), and `net.Conn` as well. -/
theorem C27_closed {cfg : Cfg} {n : Nat} {es : List Ev} {s : Sys} (h : (Sys.init n).run cfg es = some s) (hl : s.loop = .done) :
    s.closed = true := (by_run h).loop hl

/-- **C27**, never a success: if a call waits for its receipt when `processLoop` has taken an ERROR frame or found the
connection lost, then it never returns nil (nor, in the case of `Disconnect`, the error of closing the connection, which
would mean that the RECEIPT was received).

`_partial`: `Unsubscribe` is excluded, see `C27_false_unsubscribe`. -/
theorem C27_never_success_partial {cfg : Cfg} {n : Nat} {es es' : List Ev} {s s' : Sys} {t : Nat} {th : Thread} {m : Nat} {r : Res}
    (h : (Sys.init n).run cfg es = some s) (he : Spec.Ending s) (ht : s.threads[t]? = some th) (hw : th.pc = .wait m)
    (hcall : ∀ i o, th.call ≠ .unsubscribe i o) (h' : s.run cfg es' = some s') (hr : Spec.Returned s' t th.call r) :
    r ≠ .ok ∧ r ≠ .closeError := by
  obtain ⟨th', h1, _, h3⟩ := failing_run (full_run h) (ending_iff.1 he) ⟨th, ht, hcall, .inl ⟨m, hw⟩⟩ h'
  obtain ⟨th2, h4, _, h5⟩ := hr
  rw [h1] at h4; cases h4
  rcases h3 with ⟨k, h3⟩ | ⟨r', h3, h6⟩
  · rw [h3] at h5; cases h5
  · rw [h3] at h5; cases h5; exact h6

/-- **C27**, every waiting call gets an error: when `processLoop` has returned, then a call that still waits for its
receipt finds its channel closed, or its request was never taken from `writeCh`.

`_partial`: the exception, see `C27_false_waiting`; no two requests with the same key. -/
theorem C27_callers_partial {cfg : Cfg} {n : Nat} {es : List Ev} {s : Sys} {t : Nat} {th : Thread} {m : Nat}
    (h : (Sys.init n).run cfg es = some s) (hl : s.loop = .done) (hd : Spec.Distinct s)
    (ht : s.threads[t]? = some th) (hw : th.pc = .wait m) (hcall : ∀ d a o, th.call ≠ .subscribe d a o) :
    s.chanClosed m = true ∨ ∃ r ∈ s.writeCh, r.chan = some m := by
  have hi := told_run h
  obtain ⟨r, hr, hn⟩ := (hi.full.all.origin.callers t th ht).wait m hw
  obtain ⟨th', ht', hq⟩ := hi.full.all.origin.acc t r hr
  rw [ht] at ht'; cases ht'
  cases hc : s.chanClosed m with
  | true => exact .inl rfl
  | false =>
    right
    by_cases hm : m ∈ s.writeCh.filterMap (·.chan)
    · obtain ⟨r', h1, h2⟩ := List.mem_filterMap.1 hm
      exact ⟨r', h1, h2⟩
    · exfalso
      have hk : ∃ k, r.frame.header.contains Hdr.receipt = some k := by
        rcases ((reqOf_caller hcall).1 hq).2 with ⟨h1, _⟩ | ⟨_, _, _, _, _, h1⟩
        · rw [hn] at h1; cases h1
        · exact Option.isSome_iff_exists.1 h1
      obtain ⟨k, hk⟩ := hk
      have hwait : Awaits s m := by
        refine ⟨hc, .inl ?_⟩
        rcases reqOf_owner hq hn with ⟨_, _, _, _, _, _, d, a, o, e⟩ | ⟨c, h1, _⟩
        · exact absurd e (hcall d a o)
        · exact ⟨t, c, th, h1, ht, hw⟩
      have := (hi.told hd t r m k hr hn hm (.inl hk) hwait).2 (by rw [hl]; rfl)
      unfold Sys.live at this
      rw [hl] at this
      cases this

/-- **C27**, every open subscription gets an error: when `processLoop` has returned, then for a subscription whose
SUBSCRIBE was taken from `writeCh`, which was not ended by a RECEIPT and on which `Unsubscribe` was not called, an error
is, or gets, on the channel `C`: `readLoop` of the subscription puts it there by itself, if only the user reads from `C`.

`_partial`: the conditions on the SUBSCRIBE (see `C27_false_subscribe`) and on `Unsubscribe`; no two requests with the same
key. -/
theorem C27_subscriptions_partial {cfg : Cfg} {n : Nat} {es : List Ev} {s : Sys} {i : Nat} {b : Sub} {r : Req}
    (h : (Sys.init n).run cfg es = some s) (hp : s.crashed = none) (hl : s.loop = .done) (hd : Spec.Distinct s)
    (hb : s.subs[i]? = some b) (hr : .taken r ∈ s.trace) (hrn : r.chan = some b.chan)
    (hno : ∀ g, .took (some g) ∈ s.trace → ¬ Spec.ReceiptFor g b.id)
    (hu : ∀ (t : Nat) (th : Thread) (o : List SubOpt), s.threads[t]? = some th → th.call ≠ .unsubscribe i o) :
    ∃ (es' : List Ev) (s' : Sys) (b' : Sub), (∀ e ∈ es', e = .sub i ∨ e = .take i) ∧ s.run cfg es' = some s' ∧
      s'.subs[i]? = some b' ∧ ∃ m ∈ b'.got, Spec.IsError m := by
  have hi := end_run h
  have hfree : ∀ t p h, s.won t ≠ some (i, p, h) := by
    intro t p k hw
    obtain ⟨th, o, h1, h2⟩ := won_unsub hw
    exact hu t th o h1 h2
  have hok := hi.u.free i b hb hfree
  have hdue := hi.due hd i b hb hfree
  replace hdue := hdue.resolve_left (fun ⟨g, h1, h2, h3⟩ => hno g h1 ⟨h2, h3⟩)
  have hreg : ∃ k, Spec.Registers r.frame k := by
    obtain ⟨t, ht⟩ := mem_handedIn (tr := s.trace) (r := r)
      (by rw [hi.told.full.all.order.queue]; exact List.mem_append_left _ (List.mem_filterMap.2 ⟨_, hr, rfl⟩))
    exact ⟨b.id, ((own_sub hd hi.told.full.all.origin hi.sub hb).sub t r ht hrn).2 _ |>.2 rfl⟩
  obtain ⟨k, hk⟩ := hreg
  have hna := told_done hi.told hd hl hr hrn hk
  obtain ⟨⟨ow, c⟩, hc, hco⟩ := hi.sub.chan i b hb
  cases hco
  have hclosed : (b.rl = .recv ∨ ∃ m, b.rl = .put m) → s.chanClosed b.chan = true := by
    intro hrl
    refine (Bool.eq_false_or_eq_true _).resolve_right fun hf => hna ⟨hf, .inr ⟨i, c, b, hc, hb, hrl⟩⟩
  have key : Reach cfg i s := by
    cases hrl : b.rl with
    | recv =>
      obtain ⟨h1, h2, h3⟩ := free_idle hok (by rw [hrl]; rfl) (by rw [hrl]; simp)
      exact reach_recv hp hb hrl (hclosed (.inl hrl)) h3 h1 h2
    | put m =>
      obtain ⟨h1, h2, h3⟩ := free_idle hok (by rw [hrl]; rfl) (by rw [hrl]; simp)
      exact reach_msg hp hb hrl (hclosed (.inr ⟨m, hrl⟩)) h3 h1 h2
    | check m =>
      obtain ⟨h1, h2, h3⟩ := free_idle hok (by rw [hrl]; rfl) (by rw [hrl]; simp)
      rw [hrl] at hdue
      obtain ⟨e, rfl, he⟩ := hdue
      exact reach_check hp hb hrl h3 h1 h2 he
    | closing p =>
      rw [hrl] at hdue
      cases p with
      | enter m =>
        obtain ⟨h1, h2, h3⟩ := free_idle hok (by rw [hrl]; rfl) (by rw [hrl]; simp)
        obtain ⟨e, rfl, he⟩ := hdue
        exact reach_enter hp hb hrl h1 h2 he
      | put m =>
        refine reach_put hp hb hrl (Bool.eq_false_iff.2 fun hcc => ?_) hdue
        rcases hok.closer hcc with e | e | ⟨_, e | e⟩
        · rw [hrl] at e; cases e
        · rw [hrl] at e; cases e
        · cases e
        · cases e
      | store => exact ⟨[], s, b, by simp, rfl, hb, hdue⟩
      | close => exact ⟨[], s, b, by simp, rfl, hb, hdue⟩
      | broadcast => exact ⟨[], s, b, by simp, rfl, hb, hdue⟩
    | done =>
      rw [hrl] at hdue
      exact ⟨[], s, b, by simp, rfl, hb, hdue⟩
  obtain ⟨es', s', b', h1, h2, h3, m, h4, h5⟩ := key
  exact ⟨es', s', b', h1, h2, h3, m, h4, isError_iff.2 h5⟩

/-- **C27**, it does end: when `processLoop` has taken an ERROR frame or found the connection lost, then it has returned,
or it goes on, or it is at a send and the receiver has given up or is a subscription that has not yet put its last message
on `C`, or it is at the end and `closeMutex` is held by a call that has handed its request over, or is about to do so.

`_partial`: the exceptions, of which the first is C26 and the third `C27_false_waiting`; no SUBSCRIBE that asks for a
receipt. -/
theorem C27_progress_partial {cfg : Cfg} {n : Nat} {es : List Ev} {s : Sys}
    (h : (Sys.init n).run cfg es = some s) (hc : s.crashed = none) (he : Spec.Ending s)
    (hd : ∀ t r, .accepted t r ∈ s.trace → r.frame.command = Cmd.subscribe → r.frame.header.contains Hdr.receipt = none) :
    s.loop = .done ∨ (∃ s', s.step cfg (.deliver true) = some s') ∨ (∃ s', s.step cfg .finish = some s') ∨
    (∃ (f : Frame) (m t : Nat) (th : Thread), Spec.Sending s f m ∧ s.chans[m]? = some ⟨.caller t, false⟩ ∧ s.threads[t]? = some th ∧ Spec.Left th) ∨
    (∃ (f : Frame) (m i : Nat) (b : Sub) (x : CMsg), Spec.Sending s f m ∧ s.chans[m]? = some ⟨.sub i, false⟩ ∧ s.subs[i]? = some b ∧ b.rl = .put x) ∨
    (∃ (t : Nat) (th : Thread), s.mutex = some t ∧ s.threads[t]? = some th ∧ ((∃ r, th.pc = .push r) ∨ ∃ m, th.pc = .wait m)) := by
  have hlock := lock_run (lock_init n) h
  have held : ∀ t, s.mutex = some t → ∃ (th : Thread), s.threads[t]? = some th ∧ ((∃ r, th.pc = .push r) ∨ ∃ m, th.pc = .wait m) := by
    intro t ht
    obtain ⟨th, h1, h2⟩ := hlock.held t ht
    refine ⟨th, h1, ?_⟩
    unfold Thread.holds at h2
    split at h2 <;> first | (rename_i e _; exact .inl ⟨_, e⟩) | (rename_i e _; exact .inr ⟨_, e⟩) | cases h2 | skip
    all_goals (rename_i e; first | exact .inl ⟨_, e⟩ | exact .inr ⟨_, e⟩)
  by_cases hsend : ∃ f m, Spec.Sending s f m
  · obtain ⟨f, m, hs⟩ := hsend
    rcases C26_send_partial h hc hs hd with h1 | ⟨t, th, h1⟩ | ⟨i, b, x, h1⟩
    · exact .inr (.inl h1)
    · exact .inr (.inr (.inr (.inl ⟨f, m, t, th, hs, h1⟩)))
    · exact .inr (.inr (.inr (.inr (.inl ⟨f, m, i, b, x, hs, h1⟩))))
  rcases he with ⟨f, l, he⟩ | ⟨f, l, he⟩ | he
  · cases l with
    | cons m l => exact absurd ⟨f, m, .inr (.inr (.inl ⟨l, he⟩))⟩ hsend
    | nil =>
      cases hm : s.mutex with
      | some t =>
        obtain ⟨th, h1, h2⟩ := held t hm
        exact .inr (.inr (.inr (.inr (.inr ⟨t, th, rfl, h1, h2⟩))))
      | none =>
        refine .inr (.inr (.inl ?_))
        simp only [Sys.step, hc, Option.isSome_none, Bool.false_eq_true, if_false, Sys.finish, he, hm]
        exact ⟨_, rfl⟩
  · cases l with
    | cons m l => exact absurd ⟨f, m, .inr (.inr (.inr ⟨l, he⟩))⟩ hsend
    | nil =>
      cases hm : s.mutex with
      | some t =>
        obtain ⟨th, h1, h2⟩ := held t hm
        exact .inr (.inr (.inr (.inr (.inr ⟨t, th, rfl, h1, h2⟩))))
      | none =>
        refine .inr (.inr (.inl ?_))
        simp only [Sys.step, hc, Option.isSome_none, Bool.false_eq_true, if_false, Sys.finish, he, hm]
        repeat' split
        all_goals exact ⟨_, rfl⟩
  · exact .inl he

namespace Ex

def cfgPlain : Cfg := { cfgReceipt with receiptTimeout := false }

/-- The frame of `Subscribe` in `served`. -/
def subFrame : Frame := ((createSubscribeFrame 0 b!"/q" .auto []).map (·.2.1)).getD (Frame.new [] [])

def errorFrame : Frame := Frame.new Cmd.error [(Hdr.message, b!"no")]

/-- The request of `Send` is still in `writeCh` when the ERROR frame is taken. -/
def notTaken : List Ev := [.call receipted, .thread 0, .thread 0, .net (some errorFrame), .loopRead []]

def endNotTaken : Sys := ((Sys.init 0).run cfgPlain notTaken).getD (Sys.init 0)
theorem notTaken_run : (Sys.init 0).run cfgPlain notTaken = some endNotTaken := by decide +kernel

/-- `Unsubscribe` waits; the server answers with an ERROR frame. -/
def errorUnsub : List Ev :=
  [.call (.subscribe b!"/q" .auto []), .thread 0, .thread 0, .loopWrite true [],
   .call (.unsubscribe 0 []), .thread 1, .thread 1, .thread 1, .thread 1, .thread 1, .thread 1, .loopWrite true [],
   .net (some errorFrame), .loopRead [0], .deliver true, .sub 0, .sub 0, .sub 0, .sub 0, .sub 0, .sub 0, .finish,
   .thread 1, .thread 1, .thread 1]

def endErrorUnsub : Sys := ((Sys.init 0).run cfgPlain errorUnsub).getD (Sys.init 0)
theorem errorUnsub_run : (Sys.init 0).run cfgPlain errorUnsub = some endErrorUnsub := by decide +kernel

/-- The request of `Subscribe`, which has returned, is still in `writeCh` when the connection is lost. -/
def subNotTaken : List Ev :=
  [.call (.subscribe b!"/q" .auto []), .thread 0, .thread 0, .netErr, .loopRead [], .finish]

def endSubNotTaken : Sys := ((Sys.init 0).run cfgPlain subNotTaken).getD (Sys.init 0)
theorem subNotTaken_run : (Sys.init 0).run cfgPlain subNotTaken = some endSubNotTaken := by decide +kernel

/-- A subscription, and `Transaction.Send` waiting for a receipt; an ERROR frame comes. -/
def served : List Ev :=
  [.call (.subscribe b!"/q" .auto []), .thread 0, .thread 0, .loopWrite true [],
   .call txSend, .thread 1, .thread 1, .loopWrite true [],
   .net (some (message b!"1" b!"a")), .loopRead [], .deliver true, .sub 0,
   .net (some errorFrame), .loopRead [1, 0]]

def endServed : Sys := ((Sys.init 0).run cfgPlain served).getD (Sys.init 0)
theorem served_run : (Sys.init 0).run cfgPlain served = some endServed := by decide +kernel
def endServed2 : Sys := ((Sys.init 0).run cfgPlain (served ++ [.deliver true, .deliver true, .finish])).getD (Sys.init 0)
theorem served2_run : (Sys.init 0).run cfgPlain (served ++ [.deliver true, .deliver true, .finish]) = some endServed2 := by decide +kernel

end Ex

/-- **C27, in full, is false** (callers): the ERROR frame was read and taken while the request of a receipted `Send` was
in `writeCh`. In no continuation does `Send` return, nor does the connection get closed, nor `processLoop` return. -/
theorem C27_false_waiting : ∃ es s, (Sys.init 0).run Ex.cfgPlain es = some s ∧ s.crashed = none ∧
    Spec.Logged s [.took (some Ex.errorFrame)] ∧
    (∃ th, s.threads[0]? = some th ∧ th.call = Ex.receipted ∧ th.pc = .wait 0) ∧
    ∀ es' s', s.run Ex.cfgPlain es' = some s' → s'.closed = false ∧ s'.loop ≠ .done ∧ ¬ ∃ r, Spec.Returned s' 0 Ex.receipted r := by
  refine ⟨Ex.notTaken, Ex.endNotTaken, Ex.notTaken_run, by decide +kernel, by decide +kernel,
    ⟨⟨Ex.receipted, .wait 0, .none⟩, by decide +kernel, rfl, rfl⟩, ?_⟩
  intro es' s' h'
  have hj : Jam Ex.cfgPlain 0 0 Ex.endNotTaken := ⟨lock_run (lock_init 0) Ex.notTaken_run, .inl ⟨Ex.errorFrame, by decide +kernel⟩,
    ⟨.caller 0, by decide +kernel⟩, ⟨Ex.receipted, .wait 0, .none⟩, by decide +kernel, rfl, rfl, rfl⟩
  obtain ⟨hj', hr⟩ := jam_run hj h'
  refine ⟨jam_closed hj', by rw [hr.1]; decide +kernel, ?_⟩
  rintro ⟨r, th, h1, _, h2⟩
  obtain ⟨th', h3, h4, _⟩ := hj'.waits
  rw [h1] at h3; cases h3
  rw [h2] at h4; cases h4

/-- **C27, in full, is false** (`Unsubscribe`): it waits for its receipt when the ERROR frame is taken, no RECEIPT was ever
read, and it returns nil. -/
theorem C27_false_unsubscribe : ∃ es s, (Sys.init 0).run Ex.cfgPlain es = some s ∧
    (∃ p q, s.trace = p ++ .took (some Ex.errorFrame) :: q ∧ .ret 1 .ok ∈ q) ∧
    (∀ g, .read (some g) ∈ s.trace → g = Ex.errorFrame) ∧ Spec.Returned s 1 (.unsubscribe 0 []) .ok := by
  refine ⟨Ex.errorUnsub, Ex.endErrorUnsub, Ex.errorUnsub_run, ?_, ?_, ⟨.unsubscribe 0 [], .ret .ok, .none⟩, by decide +kernel, rfl, rfl⟩
  · refine ⟨Ex.endErrorUnsub.trace.take 8, Ex.endErrorUnsub.trace.drop 9, ?_, ?_⟩ <;> decide +kernel
  · intro g hg
    have h : (Ex.endErrorUnsub.trace.all fun o => match o with | .read (some g) => g == Ex.errorFrame | _ => true) = true := by
      decide +kernel
    have := List.all_eq_true.1 h _ hg
    simpa using this

/-- **C27, in full, is false** (subscriptions): `Subscribe` has returned, the connection is lost, `processLoop` has
returned. In no continuation without `Unsubscribe` is anything put on `C`, or `C` closed. -/
theorem C27_false_subscribe : ∃ es s, (Sys.init 0).run Ex.cfgPlain es = some s ∧ s.crashed = none ∧ s.loop = .done ∧
    s.readDone = true ∧ (∃ b : Sub, s.subs[0]? = some b ∧ b.returned = true) ∧
    ∀ es' s', s.run Ex.cfgPlain es' = some s' → (∀ (t : Nat) (th : Thread) (o : List SubOpt), s'.threads[t]? = some th → th.call ≠ .unsubscribe 0 o) →
      ∃ b : Sub, s'.subs[0]? = some b ∧ b.got = [] ∧ b.cClosed = false := by
  refine ⟨Ex.subNotTaken, Ex.endSubNotTaken, Ex.subNotTaken_run, by decide +kernel, by decide +kernel, by decide +kernel,
    ⟨(Ex.endSubNotTaken.subs[0]?).getD (Sub.new [] false 0), by decide +kernel, by decide +kernel⟩, ?_⟩
  intro es' s' h' hu
  have hd : Deaf 0 0 [] Ex.endSubNotTaken := ⟨uinv_run (uinv_init 0) Ex.subNotTaken_run, by decide +kernel, ⟨.sub 0, by decide +kernel⟩,
    (Ex.endSubNotTaken.subs[0]?).getD (Sub.new [] false 0), by decide +kernel, by decide +kernel, by decide +kernel, .inl (by decide +kernel)⟩
  have hd' := deaf_run hd h'
  obtain ⟨b, hb, _, hrl, hg⟩ := hd'.sub
  have hfree : ∀ t p h, s'.won t ≠ some (0, p, h) := by
    intro t p k hw
    obtain ⟨th, o, h1, h2⟩ := won_unsub hw
    exact hu t th o h1 h2
  refine ⟨b, hb, hg.resolve_right (fun ⟨t, p, k, hw⟩ => hfree t p k hw), ?_⟩
  exact (free_idle (hd'.u.free 0 b hb hfree) (by rw [hrl]; rfl) (by rw [hrl]; simp)).2.1

-- A state with a waiting call and a subscription in which the ERROR frame was taken, and how it goes on.
example : Ex.endServed.loop = .errs Ex.errorFrame [1, 0] ∧ Ex.endServed.crashed = none ∧ Ex.endServed.threads.map (·.pc) = [.ret .ok, .wait 1] := by
  decide +kernel
example : Ex.endServed2.loop = .done ∧ Ex.endServed2.crashed = none ∧ Ex.endServed2.closed = true ∧
    Ex.endServed2.threads.map (·.pc) = [.ret .ok, .ret (.response Ex.errorFrame)] ∧
    Ex.endServed2.subs.map (fun b => (b.rl, b.got.length)) = [(.check (some (.error Ex.errorFrame)), 1)] := by decide +kernel
-- The hypotheses of `C27_callers_partial` and `C27_subscriptions_partial` hold of it.
theorem Ex.served2_distinct : Spec.Distinct Ex.endServed2 := by
  have hacc : acceptedIn Ex.endServed2.trace = [(0, ⟨Ex.subFrame, some 0⟩), (1, ⟨Ex.txFrame, some 1⟩)] := by decide +kernel
  have mem : ∀ {t : Nat} {r : Req}, .accepted t r ∈ Ex.endServed2.trace → (t, r) ∈ acceptedIn Ex.endServed2.trace :=
    fun h => List.mem_filterMap.2 ⟨_, h, rfl⟩
  rw [hacc] at mem
  have k0 : ∀ k, Spec.Registers Ex.subFrame k → k = b!"1" := by
    rintro k (h | ⟨_, h⟩)
    · have : Ex.subFrame.header.contains Hdr.receipt = none := by decide +kernel
      rw [this] at h; cases h
    · rw [← h]; decide +kernel
  have k1 : ∀ k, Spec.Registers Ex.txFrame k → k = b!"3" := by
    rintro k (h | ⟨h, _⟩)
    · have : Ex.txFrame.header.contains Hdr.receipt = some b!"3" := by decide +kernel
      rw [this] at h; cases h; rfl
    · exact absurd h (by decide +kernel)
  constructor
  · intro t r t' r' k h h' _ _ hk hk'
    have h1 := mem h
    have h2 := mem h'
    simp only [List.mem_cons, Prod.mk.injEq, List.not_mem_nil, or_false] at h1 h2
    rcases h1 with ⟨rfl, rfl⟩ | ⟨rfl, rfl⟩ <;> rcases h2 with ⟨rfl, rfl⟩ | ⟨rfl, rfl⟩
    · rfl
    · exact absurd ((k0 k hk).symm.trans (k1 k hk')) (by decide)
    · exact absurd ((k1 k hk).symm.trans (k0 k hk')) (by decide)
    · rfl
  · intro t r h hs
    have h1 := mem h
    simp only [List.mem_cons, Prod.mk.injEq, List.not_mem_nil, or_false] at h1
    rcases h1 with ⟨rfl, rfl⟩ | ⟨rfl, rfl⟩
    · decide +kernel
    · exact absurd hs (by decide +kernel)
example : Spec.Logged Ex.endServed2 [.taken ⟨Ex.subFrame, some 0⟩] ∧ Ex.endServed2.subs.map (·.chan) = [0] := by decide +kernel
example : (Ex.endServed.run Ex.cfgPlain [.deliver true, .deliver true, .finish, .sub 0, .sub 0, .sub 0, .sub 0, .sub 0, .sub 0]).map
    (fun s => (s.subs.map fun b => (b.got.length, b.cClosed, b.rl))) = some [(2, true, .done)] := by decide +kernel
-- `processLoop` has returned and a call waits, as in `C27_callers_partial`.
example : ((Sys.init 0).run Ex.cfgPlain [.call Ex.txSend, .thread 0, .thread 0, .net (some Ex.errorFrame), .loopRead [], .finish]).map
    (fun s => (s.loop, s.closed, s.threads.map (·.pc), s.writeCh)) = some (.done, true, [.wait 0], [⟨Ex.txFrame, some 0⟩]) := by
  decide +kernel

end Stomp.Client
