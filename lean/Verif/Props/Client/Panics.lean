import Verif.Proofs.Client.Tame
import Verif.Props.Client.Unsubscribe
/-!
# C53: panics of the client
-/
namespace Stomp.Client
open Stomp

namespace Spec

/-- `frame` was given to `processLoop` for the call `call`. -/
def Requested (s : Sys) (call : Call) (frame : Frame) : Prop :=
  ∃ (t : Nat) (th : Thread) (r : Req), s.threads[t]? = some th ∧ th.call = call ∧ .accepted t r ∈ s.trace ∧ r.frame = frame

/-- The options of `Subscribe` name no receipt header. -/
def tame : Call → Bool
  | .subscribe _ _ o => o.all fun x => match x with
    | .header k _ => k != b!"receipt"
    | _ => true
  | _ => true

def isUnsubscribe : Call → Bool
  | .unsubscribe .. => true
  | _ => false

end Spec

/-- **C53**, what can make the client panic: an `Unsubscribe` during which `C` is closed (see C24), or a `Subscribe`
whose options set a receipt header. -/
theorem C53_only_partial {cfg : Cfg} {n : Nat} {es : List Ev} {s : Sys} {p : Panic} (h : (Sys.init n).run cfg es = some s)
    (hc : s.crashed = some p) :
    (p = .sendC ∧ ∃ (t : Nat) (th : Thread) (i : Nat) (o : List SubOpt) (b : Sub), s.threads[t]? = some th ∧ th.call = .unsubscribe i o ∧
      s.subs[i]? = some b ∧ b.cClosed = true) ∨
    ((p = .sendChan ∨ p = .closeChan) ∧ ∃ d a o f, Spec.Requested s (.subscribe d a o) f ∧ f.header.contains b!"receipt" ≠ none) := by
  obtain ⟨es', e, s1, he, hr, hs, hc1, hw⟩ := crash_run rfl h hc
  have hx := ext_step (step_cases hs).2
  obtain ⟨tr, htr⟩ := hx.trace
  have hu := uinv_run (uinv_init n) hr
  obtain ⟨hf1, hn1⟩ := nil_run hr
  have ho := (nil_run h).1.all.origin
  have h19 := lock_run (lock_init n) h
  have fwd : ∀ {t : Nat} {th : Thread} {i : Nat} {o : List SubOpt} {b : Sub}, s1.threads[t]? = some th → th.call = .unsubscribe i o →
      s1.subs[i]? = some b → b.cClosed = true →
      ∃ (t : Nat) (th : Thread) (i : Nat) (o : List SubOpt) (b : Sub), s.threads[t]? = some th ∧ th.call = .unsubscribe i o ∧
        s.subs[i]? = some b ∧ b.cClosed = true := by
    intro t th i o b ht hcall hb hcl
    obtain ⟨th', ht', e1⟩ := hx.threads t th ht
    obtain ⟨b', hb', hcl', _⟩ := C24_nothing_after (cfg := cfg) (es' := [e]) hr hb hcl (by simp only [Sys.run, hs]; rfl)
    exact ⟨t, th', i, o, b', ht', e1.trans hcall, hb', hcl'⟩
  have chan : (p = .sendChan ∨ p = .closeChan) → 
      ∃ d a o f, Spec.Requested s (.subscribe d a o) f ∧ f.header.contains b!"receipt" ≠ none := by
    intro hp
    obtain ⟨t, r, h1, h2, h3⟩ := why_chan hf1 hw hp
    have h1' : Obs.accepted t r ∈ s.trace := by rw [htr]; exact List.mem_append_left _ h1
    obtain ⟨th, ht, hq⟩ := ho.acc t r (List.mem_filterMap.2 ⟨_, h1', rfl⟩)
    have : ∃ d a o, th.call = .subscribe d a o := by
      refine Classical.byContradiction fun hn => ?_
      have hn' : ∀ d a o, th.call ≠ .subscribe d a o := fun d a o e => hn ⟨d, a, o, e⟩
      exact frameOf_not_subscribe hn' ((reqOf_caller hn').1 hq).1 h2
    obtain ⟨d, a, o, e1⟩ := this
    exact ⟨d, a, o, r.frame, ⟨t, th, r, ht, e1, h1', rfl⟩, h3⟩
  cases p with
  | sendWriteCh => exact absurd hc h19.panic.1
  | closeWriteCh => exact absurd hc h19.panic.2
  | closeC => exact absurd rfl (why_closeC hu hw)
  | unlock => exact absurd rfl (why_unlock hu hw)
  | nilResponse => exact absurd rfl (why_nil hn1 hw)
  | sendC =>
    refine .inl ⟨rfl, ?_⟩
    rcases why_sendC hu hw with ⟨t, th, i, o, b, ht, hcall, hb, hcl, _⟩ | ⟨i, b, m, t, th, o, hb, hcl, _, ht, hcall, _⟩
    · exact fwd ht hcall hb hcl
    · exact fwd ht hcall hb hcl
  | sendChan => exact .inr ⟨.inl rfl, chan (.inl rfl)⟩
  | closeChan => exact .inr ⟨.inr rfl, chan (.inr rfl)⟩

/-- **C53**, the receipt itself: `readReceiptWithTimeout` does not check whether the response channel was closed, and
would dereference nil if it was.  It never is: `Send` and `Disconnect` keep the lock while they wait, so that no
UNSUBSCRIBE of a temporary queue named like the receipt can be processed meanwhile. -/
theorem C53_receipt {cfg : Cfg} {n : Nat} {es : List Ev} {s : Sys} (h : (Sys.init n).run cfg es = some s) :
    s.crashed ≠ some .nilResponse := by
  intro hc
  rcases C53_only_partial h hc with ⟨e, _⟩ | ⟨e | e, _⟩ <;> cases e

/-- **C53**, users who ask for no receipt of their SUBSCRIBEs: the only panic is the send on the closed `C` of a
subscription, of C24. -/
theorem C53_tame_partial {cfg : Cfg} {n : Nat} {es : List Ev} {s : Sys} (h : (Sys.init n).run cfg es = some s)
    (ht : ∀ c, Ev.call c ∈ es → Spec.tame c = true) : s.crashed = none ∨ s.crashed = some .sendC := by
  cases hc : s.crashed with
  | none => exact .inl rfl
  | some p =>
    right
    rcases C53_only_partial h hc with ⟨rfl, _⟩ | ⟨_, d, a, o, f, ⟨t, th, r, ht1, hcall, hacc, rfl⟩, hrc⟩
    · rfl
    · exfalso
      obtain ⟨th2, ht2, hq⟩ := (nil_run h).1.all.origin.acc t r (List.mem_filterMap.2 ⟨_, hacc, rfl⟩)
      rw [ht1] at ht2; cases ht2
      have htm := calls_run (P := fun c => Spec.tame c = true) ht (fun t th h => by cases h) h t th ht1
      rw [hcall] at hq htm
      obtain ⟨n, i, last, last', b, c, _, _, _, _, _, hf⟩ := hq
      exact hrc (subscribe_unset hf fun k v hk => by
        have := List.all_eq_true.1 htm _ hk
        simp only [bne_iff_ne, ne_eq] at this
        exact this)

/-- **C53**, and if they do not unsubscribe either, nothing panics, whatever the server sends. -/
theorem C53_quiet_partial {cfg : Cfg} {n : Nat} {es : List Ev} {s : Sys} (h : (Sys.init n).run cfg es = some s)
    (ht : ∀ c, Ev.call c ∈ es → Spec.tame c = true) (hu : ∀ c, Ev.call c ∈ es → Spec.isUnsubscribe c = false) : s.crashed = none := by
  rcases C53_tame_partial h ht with e | e
  · exact e
  · exfalso
    refine C24_without_unsubscribe_partial h (fun t th i o h1 h2 => ?_) e
    have := calls_run (P := fun c => Spec.isUnsubscribe c = false) hu (fun t th h => by cases h) h t th h1
    rw [h2] at this
    cases this

namespace Ex

/-- `Subscribe` with a receipt header; the server confirms, and sends a message. -/
def receiptOnSubscribe : List Ev :=
  [.call (.subscribe b!"/q" .auto [.header b!"receipt" b!"r"]), .thread 0, .thread 0, .loopWrite true [],
   .net (some (receiptFrame b!"r")), .net (some (message b!"1" b!"a")),
   .loopRead [], .deliver true, .loopRead [], .deliver true]

/-- The same for a subscription to a temporary queue, which the user then gives up. -/
def receiptOnTempQueue : List Ev :=
  [.call (.subscribe b!"/q" .auto [.header b!"reply-to" b!"/temp-queue/x", .header b!"receipt" b!"r"]), .thread 0, .thread 0, .loopWrite true [],
   .net (some (receiptFrame b!"r")), .loopRead [], .deliver true,
   .call (.unsubscribe 0 []), .thread 1, .thread 1, .thread 1, .loopWrite true []]

/-- A SEND with a receipt, a subscription with a message, an ERROR, and the end of everything. -/
def allQuiet : List Ev :=
  [.call (.subscribe b!"/q" .auto [.header b!"selector" b!"x"]), .thread 0, .thread 0, .loopWrite true [],
   .call receipted, .thread 1, .thread 1, .loopWrite true [],
   .net (some (message b!"1" b!"a")), .net (some (receiptFrame b!"2")), .net (some (Frame.new Cmd.error [])),
   .loopRead [], .deliver true, .loopRead [], .deliver true, .loopRead [0], .sub 0, .deliver true]

end Ex

/-- **C53, in full, is false**: the RECEIPT for a SUBSCRIBE closes the channel of the subscription, and the first
MESSAGE for it makes `processLoop` send on the closed channel. -/
theorem C53_false_message : ∃ s, (Sys.init 0).run Ex.cfg
    [.call (.subscribe b!"/q" .auto [.header b!"receipt" b!"r"]), .thread 0, .thread 0, .loopWrite true [],
     .net (some (Ex.receiptFrame b!"r")), .net (some (Ex.message b!"1" b!"a")),
     .loopRead [], .deliver true, .loopRead [], .deliver true] = some s ∧ s.crashed = some .sendChan :=
  ⟨((Sys.init 0).run Ex.cfg Ex.receiptOnSubscribe).getD (Sys.init 0), by decide +kernel, by decide +kernel⟩

/-- **C53, in full, is false**: with a temporary queue it is `Unsubscribe` that makes `processLoop` close the channel a
second time. -/
theorem C53_false_unsubscribe : ∃ s, (Sys.init 0).run Ex.cfg Ex.receiptOnTempQueue = some s ∧ s.crashed = some .closeChan :=
  ⟨((Sys.init 0).run Ex.cfg Ex.receiptOnTempQueue).getD (Sys.init 0), by decide +kernel, by decide +kernel⟩

-- The panics of C24 are the remaining ones.
example : ∃ s, (Sys.init 0).run Ex.cfg Ex.sendAfterClose = some s ∧ s.crashed = some .sendC ∧
    ∀ c, Ev.call c ∈ Ex.sendAfterClose → Spec.tame c = true := by
  refine ⟨Ex.endSendAfterClose, Ex.sendAfterClose_run, by decide +kernel, ?_⟩
  intro c hc
  simp only [Ex.sendAfterClose, List.mem_cons, Ev.call.injEq, reduceCtorEq, false_or, or_false, List.not_mem_nil] at hc
  rcases hc with rfl | rfl | rfl <;> rfl

-- An execution in which nothing panics.
example : (∀ c, Ev.call c ∈ Ex.allQuiet → Spec.tame c = true ∧ Spec.isUnsubscribe c = false) ∧
    ((Sys.init 0).run Ex.cfg Ex.allQuiet).map (fun s => (s.crashed, s.threads.map (·.pc), s.subs.map (fun b => b.got.length))) =
      some (none, [.ret .ok, .ret .ok], [1]) := by
  constructor
  · intro c hc
    simp only [Ex.allQuiet, Ex.receipted, List.mem_cons, Ev.call.injEq, reduceCtorEq, false_or, or_false, List.not_mem_nil] at hc
    rcases hc with rfl | rfl <;> exact ⟨by decide, rfl⟩
  · decide +kernel

end Stomp.Client
