import Verif.Props.Client.Failure
import Verif.Proofs.Client.Read
/-!
# C59: `Subscription.Read`
-/
namespace Stomp.Client
open Stomp

namespace Spec

/-- The call of `Read` has returned `r`. -/
def ReadReturned (x : RSys) (k : Nat) (r : ReadRes) : Prop := ∃ rd : Reader, x.readers[k]? = some rd ∧ rd.pc = .ret r

/-- `C` of subscription `i` gets nothing more than `l`, in whatever happens later. -/
def GotAll (cfg : Cfg) (x : RSys) (i : Nat) (l : List CMsg) : Prop :=
  ∀ (es : List REv) (x' : RSys) (b' : Sub), x.run cfg es = some x' → x'.sys.subs[i]? = some b' → b'.got = l

/-- In `Unsubscribe`, past the writing of the UNSUBSCRIBE frame and not yet returned (`subscription.go:101-136`, without the branch in which the
connection was closed before that frame). -/
def WaitsForEnd : Pc → Bool
  | .subLock _ | .check _ | .condWait | .asleep _ | .relock | .select | .timedOut | .putTimeout => true
  | _ => false

end Spec

/-- **C59**: what the calls of `Read` on a subscription have returned, is what was put on its channel `C` (`got`), in that order, without gaps and
each once; the rest is still on `C`. Messages come with their frame, errors as errors. However many calls of `Read` there are, on whatever
subscriptions. (That what was put on `C` is what the network brought, is C23.) -/
theorem C59_in_order {cfg : Cfg} {n : Nat} {es : List REv} {x : RSys} {i : Nat} {b : Sub} (h : (RSys.init n).run cfg es = some x) (ho : Spec.OnlyRead i es)
    (hb : x.sys.subs[i]? = some b) : b.got.map CMsg.read = Spec.readOf i x.log ++ b.buf.map CMsg.read :=
  (drainInv_run h ho).1 b hb

/-- **C59**: a call of `Read` waits only while `C` is open and empty. -/
theorem C59_returns {cfg : Cfg} {n : Nat} {es : List REv} {x : RSys} {k : Nat} {rd : Reader} (h : (RSys.init n).run cfg es = some x)
    (hc : x.sys.crashed = none) (hk : x.readers[k]? = some rd) : ∃ b, x.sys.subs[rd.sub]? = some b ∧
      (rd.pc = .start → ∃ x', x.step cfg (.read k) = some x') ∧
      (rd.pc = .recv → b.buf ≠ [] ∨ b.cClosed = true → ∃ x' r, x.step cfg (.read k) = some x' ∧ Spec.ReadReturned x' k r) := by
  obtain ⟨b, hb⟩ := readers_run h k rd hk
  have hc' : x.sys.crashed.isSome = false := by rw [hc]; rfl
  have back : ∀ (y : RSys) (r : ReadRes), y.readers = x.readers → Spec.ReadReturned (y.ret k rd.sub r) k r := by
    intro y r hy
    refine ⟨{ rd with pc := .ret r }, ?_, rfl⟩
    show (y.readers.modify k _)[k]? = _
    rw [List.getElem?_modify, hy, hk]
    simp
  refine ⟨b, hb, ?_, ?_⟩
  · intro hp
    simp only [RSys.step, hc', RSys.read, hk, hb, hp, Bool.false_eq_true, if_false]
    split <;> exact ⟨_, rfl⟩
  · intro hp hor
    cases hm : b.buf with
    | nil =>
      refine ⟨x.ret k rd.sub .completed, .completed, ?_, back x _ rfl⟩
      simp only [RSys.step, hc', RSys.read, hk, hb, hp, hm, hor.resolve_left (fun h => h hm), Bool.false_eq_true, if_false, if_true]
    | cons m rest =>
      refine ⟨({ x with sys := x.sys.setSub rd.sub { b with buf := rest } } : RSys).ret k rd.sub m.read, m.read, ?_, back _ _ rfl⟩
      simp only [RSys.step, hc', RSys.read, hk, hb, hp, hm, Bool.false_eq_true, if_false, Sys.step, Option.map_some]

/-- **C59**, partial: `Read` returns `ErrCompletedSubscription` only if (a) `C` is closed and everything was received from it; or (b) `Unsubscribe`
has been called; or (c) `C` gets nothing more: then exactly what is on `C` now, at most 16 entries, was not read.

`_partial`: (b) and (c). See `C59_end_false` and `C59_unsubscribe_false`. -/
theorem C59_completed_partial {cfg : Cfg} {n : Nat} {es : List REv} {x x' : RSys} {k : Nat} {rd : Reader} (h : (RSys.init n).run cfg es = some x)
    (hk : x.readers[k]? = some rd) (hs : x.step cfg (.read k) = some x') (hr : Spec.ReadReturned x' k .completed) :
    ∃ b, x.sys.subs[rd.sub]? = some b ∧ b.buf.length ≤ 16 ∧
      ((b.cClosed = true ∧ b.buf = []) ∨ Spec.Unsubscribed x.sys rd.sub ∨ (b.state = .closed ∧ Spec.GotAll cfg x' rd.sub b.got)) := by
  obtain ⟨ses, hrun⟩ := rsys_run h
  have hu : UInv x.sys := uinv_run (uinv_init n) hrun
  obtain ⟨b, hb⟩ := readers_run h k rd hk
  have hw := why_inv_run rd.sub hrun
  refine ⟨b, hb, hw.room b hb, ?_⟩
  cases rstep_read hs with
  | enter hr1 hb1 hp hst =>
    obtain ⟨rd2, h1, h2⟩ := hr
    simp only [RSys.goto, List.getElem?_modify, hk] at h1
    simp at h1
    subst h1; cases h2
  | @got r c m rest s hr1 hb1 hp hm hst =>
    obtain ⟨rd2, h1, h2⟩ := hr
    simp only [RSys.ret, RSys.goto, List.getElem?_modify, hk] at h1
    simp at h1
    subst h1
    exact absurd (by injection h2) (read_ne m)
  | drained hr1 hb1 hp hm hcl =>
    rw [hk] at hr1; cases hr1
    rw [hb] at hb1; cases hb1
    exact .inl ⟨hcl, hm⟩
  | late hr1 hb1 hp hst =>
    rw [hk] at hr1; cases hr1
    rw [hb] at hb1; cases hb1
    refine .inr ?_
    refine (Classical.em (Spec.Unsubscribed x.sys rd.sub)).imp id fun hn => ?_
    have hcl : b.state = .closed := by
      cases e : b.state with
      | active => exact absurd e hst
      | closing => exact absurd (hw.closing b hb e) hn
      | closed => rfl
    refine ⟨hcl, ?_⟩
    intro es2 x2 b2 h2 hb2
    have hset := settled_of hu hb hcl hn
    have := rsys_induct (P := fun y => UInv y.sys ∧ Settled rd.sub b.got y.sys) (ok := fun _ => True) (by
      intro y e y' ⟨hy, hf⟩ _ hst
      have more : ∀ e s, y.sys.step cfg e = some s → UInv s ∧ Settled rd.sub b.got s := fun e s hs =>
        ⟨uinv_step hy (step_cases hs).2, settled_step hy hf (step_cases hs).2⟩
      cases e with
      | sys e =>
        obtain ⟨s, a1, a2⟩ := Option.map_eq_some_iff.1 hst
        subst a2
        exact more e s a1
      | call j =>
        simp only [RSys.step] at hst
        repeat' split at hst
        all_goals first
          | contradiction
          | (cases hst; exact ⟨hy, hf⟩)
      | read j =>
        cases rstep_read hst with
        | got _ _ _ _ hs => exact more _ _ hs
        | _ => exact ⟨hy, hf⟩) es2 (x.ret k rd.sub .completed) x2 (fun _ _ => trivial) ⟨hu, hset⟩ h2
    rcases this.2 with ⟨b3, h3, _, h4⟩ | ⟨b3, h3, h4, _⟩ <;> rw [hb2] at h3 <;> cases h3 <;> exact h4

/-- **C59 fails, in general**: once a subscription is closed and no call of `Read` is waiting at `C`, nothing more is read from it by `Read`,
whatever is on `C`. -/
theorem C59_closed {cfg : Cfg} {n : Nat} {es es' : List REv} {x x' : RSys} {i : Nat} {b : Sub} (h : (RSys.init n).run cfg es = some x)
    (hb : x.sys.subs[i]? = some b) (hst : b.state = .closed)
    (hrd : ∀ (k : Nat) (r : Reader), x.readers[k]? = some r → r.sub = i → r.pc ≠ .recv) (h' : x.run cfg es' = some x') :
    Spec.readOf i x'.log = Spec.readOf i x.log := by
  obtain ⟨ses, hrun⟩ := rsys_run h
  exact (lateRead_run ⟨uinv_run (uinv_init n) hrun, ⟨b, hb, hst⟩, hrd, rfl⟩ h').log

/-- **C59 fails, in general**: `Unsubscribe` waits for the end of a subscription; 16 messages are on `C`, `readLoop` has the next one in hand, and
`processLoop` has yet another one for it. As long as nobody receives from `C` otherwise than by `Read`, in every continuation (with or without
timers) `Unsubscribe` does not return, every call of `Read` on it returns `ErrCompletedSubscription`, and `processLoop` takes no request, reads no
frame and writes nothing. -/
theorem C59_stuck {cfg : Cfg} {n : Nat} {es es' : List REv} {x x' : RSys} {t i c : Nat} {th : Thread} {o : List SubOpt} {b : Sub} {m : CMsg} {f : Frame}
    (h : (RSys.init n).run cfg es = some x) (ht : x.sys.threads[t]? = some th) (hcall : th.call = .unsubscribe i o) (hpc : Spec.WaitsForEnd th.pc = true)
    (hb : x.sys.subs[i]? = some b) (hst : b.state = .closing) (hrl : b.rl = .put m) (hlen : b.buf.length = 16)
    (hn : x.sys.chans[c]? = some ⟨.sub i, false⟩) (hs : Spec.Sending x.sys f c)
    (hrd : ∀ (k : Nat) (r : Reader), x.readers[k]? = some r → r.sub = i → r.pc ≠ .recv) (ho : Spec.OnlyRead i es') (h' : x.run cfg es' = some x') :
    (∃ th', x'.sys.threads[t]? = some th' ∧ th'.call = .unsubscribe i o ∧ ∀ r, th'.pc ≠ .ret r) ∧
    (∃ b', x'.sys.subs[i]? = some b' ∧ b'.state = .closing ∧ b'.buf.length = 16) ∧
    (∀ (k : Nat) (r : Reader), x'.readers[k]? = some r → r.sub = i → r.pc ≠ .recv) ∧
    x'.sys.loop = x.sys.loop ∧ Spec.loopLog x'.sys = Spec.loopLog x.sys := by
  obtain ⟨ses, hrun⟩ := rsys_run h
  have hw : x.sys.won t = some (i, th.pc, th.helper) := by
    refine won_of ht hcall ?_ ?_ <;> (revert hpc; cases th.pc <;> simp [Spec.WaitsForEnd])
  have hg : RClog t i c x := ⟨uinv_run (uinv_init n) hrun, ⟨⟨b, m, hb, hst, hrl, hlen⟩, ⟨th.pc, th.helper, hw, hpc⟩, ⟨f, hs⟩, hn⟩, hrd⟩
  obtain ⟨hg', hr⟩ := rclog_run hg ho h'
  obtain ⟨pc, hh, hw', hp'⟩ := hg'.clog.thr
  obtain ⟨b', m', hb', hst', _, hlen'⟩ := hg'.clog.sub
  refine ⟨?_, ⟨b', hb', hst', hlen'⟩, hg'.noRecv, hr.1, loopLog_rests hr⟩
  have hth : ∃ th', x'.sys.threads[t]? = some th' ∧ th'.call = th.call :=
    rsys_induct (P := fun y => ∃ th', y.sys.threads[t]? = some th' ∧ th'.call = th.call) (ok := fun _ => True) (by
      intro y e y' ⟨th1, h1, h2⟩ _ hst
      have more : ∀ e s, y.sys.step cfg e = some s → ∃ th', s.threads[t]? = some th' ∧ th'.call = th.call := by
        intro e s hs
        obtain ⟨th2, h3, h4⟩ := (ext_step (step_cases hs).2).threads t th1 h1
        exact ⟨th2, h3, h4.trans h2⟩
      cases e with
      | sys e =>
        obtain ⟨s, a1, a2⟩ := Option.map_eq_some_iff.1 hst
        subst a2
        exact more e s a1
      | call j =>
        simp only [RSys.step] at hst
        repeat' split at hst
        all_goals first
          | contradiction
          | (cases hst; exact ⟨th1, h1, h2⟩)
      | read j =>
        cases rstep_read hst with
        | got _ _ _ _ hs => exact more _ _ hs
        | _ => exact ⟨th1, h1, h2⟩) es' x x' (fun _ _ => trivial) ⟨th, ht, rfl⟩ h'
  obtain ⟨th', ht', hc'⟩ := hth
  refine ⟨th', ht', hc'.trans hcall, ?_⟩
  intro r hr
  have : x'.sys.won t = some (i, pc, hh) := hw'
  unfold Sys.won at this
  rw [ht'] at this
  simp only [Option.bind_some, Thread.won, hc', hcall] at this
  split at this
  · cases this
  · cases this
    rw [hr] at hp'
    cases hp'

namespace Ex

def asRead (l : List Ev) : List REv := l.map REv.sys

/-- `Subscribe`. -/
def opened : List REv := asRead [.call (.subscribe b!"/q" .auto []), .thread 0, .thread 0, .loopWrite true []]

/-- A MESSAGE comes and is put on `C`. -/
def putOne (body : Bytes) : List REv := asRead [.net (some (message b!"1" body)), .loopRead [], .deliver true, .sub 0]

/-- A MESSAGE and an ERROR come, then `Read` is called. -/
def readAtEnd : List REv :=
  opened ++ putOne b!"a" ++ asRead [.net (some errorFrame), .loopRead [0], .deliver true, .sub 0, .sub 0, .sub 0, .sub 0, .sub 0, .sub 0] ++ [.call 0]

def endReadAtEnd : RSys := ((RSys.init 0).run cfg readAtEnd).getD (RSys.init 0)
theorem readAtEnd_run : (RSys.init 0).run cfg readAtEnd = some endReadAtEnd := by decide +kernel
def endReadAtEnd2 : RSys := (endReadAtEnd.step cfg (.read 0)).getD (RSys.init 0)
theorem readAtEnd_step : endReadAtEnd.step cfg (.read 0) = some endReadAtEnd2 := by decide +kernel

/-- The application reads with `Read` until it gets `ErrCompletedSubscription`, which is while `Unsubscribe` runs. 18 more messages come before the
RECEIPT for UNSUBSCRIBE. -/
def readToTheEnd : List REv :=
  opened ++ putOne b!"a" ++ [.call 0, .read 0, .read 0] ++ asRead [.call (.unsubscribe 0 []), .thread 1, .thread 1, .thread 1, .loopWrite true []] ++
  [.call 0, .read 1] ++ (List.replicate 16 (putOne b!"b")).flatten ++
  asRead [.net (some (message b!"1" b!"c")), .loopRead [], .deliver true, .net (some (message b!"1" b!"d")), .loopRead [],
    .net (some (receiptFrame b!"1")), .thread 1, .thread 1]

def endReadToTheEnd : RSys := ((RSys.init 0).run cfg readToTheEnd).getD (RSys.init 0)
theorem readToTheEnd_run : (RSys.init 0).run cfg readToTheEnd = some endReadToTheEnd := by decide +kernel

/-- A message is put on `C`; `Read`; another message, `Read`; `Read` again, waiting when the connection fails. -/
def readAll : List REv :=
  opened ++ putOne b!"a" ++ [.call 0, .read 0] ++ putOne b!"b" ++ [.read 0, .call 0, .read 1, .read 1, .call 0, .call 0, .read 2, .read 3] ++
  asRead [.netErr, .loopRead [0], .deliver true, .sub 0, .sub 0, .sub 0, .sub 0, .sub 0, .sub 0] ++ [.read 2]

def endReadAll : RSys := ((RSys.init 0).run cfg readAll).getD (RSys.init 0)
theorem readAll_run : (RSys.init 0).run cfg readAll = some endReadAll := by decide +kernel

end Ex

/-- **C59, in full, is false** (the end of the subscription): a MESSAGE and an ERROR have been put on `C`. `Unsubscribe` was never called. `Read`,
called then, returns `ErrCompletedSubscription`, and so does every later call: neither the message nor the error is ever read. -/
theorem C59_end_false : ∃ es x b f g, (RSys.init 0).run Ex.cfg es = some x ∧ Spec.OnlyRead 0 es ∧ ¬ Spec.Unsubscribed x.sys 0 ∧
    Spec.ReadReturned x 0 .completed ∧ x.sys.subs[0]? = some b ∧ b.got = [.msg f, .error g] ∧ b.buf = b.got ∧
    ∀ es' x', x.run Ex.cfg es' = some x' → Spec.readOf 0 x'.log = [] := by
  have hrun : (RSys.init 0).run Ex.cfg (Ex.readAtEnd ++ [.read 0]) = some Ex.endReadAtEnd2 := by decide +kernel
  refine ⟨Ex.readAtEnd ++ [.read 0], Ex.endReadAtEnd2, (Ex.endReadAtEnd2.sys.subs[0]?).getD (Sub.new [] false 0), Ex.message b!"1" b!"a", Ex.errorFrame,
    hrun, by unfold Spec.OnlyRead; decide +kernel, ?_, ⟨_, rfl, by decide +kernel⟩, by decide +kernel, by decide +kernel, by decide +kernel, ?_⟩
  · rintro ⟨t, th, o, ht, hc⟩
    have hl : Ex.endReadAtEnd2.sys.threads = [⟨.subscribe b!"/q" .auto [], .ret .ok, .none⟩] := by decide +kernel
    rw [hl] at ht
    match t, ht with
    | 0, ht => cases ht; cases hc
  · intro es' x' h'
    refine C59_closed (b := (Ex.endReadAtEnd2.sys.subs[0]?).getD (Sub.new [] false 0)) hrun (by decide +kernel) (by decide +kernel) ?_ h' |>.trans (by decide +kernel)
    intro k r hr _
    have hl : Ex.endReadAtEnd2.readers = [⟨0, .ret .completed⟩] := by decide +kernel
    rw [hl] at hr
    match k, hr with
    | 0, hr => cases hr; exact fun h => by cases h

/-- **C59, in full, is false** (`Unsubscribe`): the application reads with `Read` until it returns `ErrCompletedSubscription`, as it does when
`Unsubscribe` has begun. The server's RECEIPT for UNSUBSCRIBE has arrived. In no continuation in which the application receives from `C` only by
`Read`, `Unsubscribe` returns, though it has a timeout (`unsubTimeout`); and `processLoop` does nothing more, for any other call or subscription. -/
theorem C59_unsubscribe_false : ∃ es x, (RSys.init 0).run Ex.cfg es = some x ∧ Spec.OnlyRead 0 es ∧ x.sys.crashed = none ∧ Ex.cfg.unsubTimeout = true ∧
    Spec.ReadReturned x 1 .completed ∧ x.sys.readCh = [some (Ex.receiptFrame b!"1")] ∧ ∀ es' x', x.run Ex.cfg es' = some x' → Spec.OnlyRead 0 es' →
      (∃ th, x'.sys.threads[1]? = some th ∧ th.call = .unsubscribe 0 [] ∧ ∀ r, th.pc ≠ .ret r) ∧ x'.sys.loop = x.sys.loop ∧
      Spec.loopLog x'.sys = Spec.loopLog x.sys := by
  refine ⟨Ex.readToTheEnd, Ex.endReadToTheEnd, Ex.readToTheEnd_run, by unfold Spec.OnlyRead; decide +kernel, by decide +kernel, rfl,
    ⟨⟨0, .ret .completed⟩, by decide +kernel, rfl⟩, by decide +kernel, ?_⟩
  intro es' x' h' ho
  obtain ⟨h1, _, _, h2, h3⟩ := C59_stuck (t := 1) (i := 0) (c := 0) (th := ⟨.unsubscribe 0 [], .select, .start⟩) (o := [])
    (b := (Ex.endReadToTheEnd.sys.subs[0]?).getD (Sub.new [] false 0)) (m := .msg (Ex.message b!"1" b!"c")) (f := Ex.message b!"1" b!"d")
    Ex.readToTheEnd_run (by decide +kernel) rfl rfl (by decide +kernel) (by decide +kernel) (by decide +kernel) (by decide +kernel) (by decide +kernel)
    (.inr (.inl (by decide +kernel))) (by
      intro k r hr _
      have hl : Ex.endReadToTheEnd.readers = [⟨0, .ret (.msg (Ex.message b!"1" b!"a"))⟩, ⟨0, .ret .completed⟩] := by decide +kernel
      rw [hl] at hr
      match k, hr with
      | 0, hr => cases hr; exact fun h => by cases h
      | 1, hr => cases hr; exact fun h => by cases h) ho h'
  exact ⟨h1, h2, h3⟩

-- `C59_in_order` for an execution in which two messages and the error of a lost connection were read: the last call of `Read` finds nothing more.
example : Spec.readOf 0 Ex.endReadAll.log = [.msg (Ex.message b!"1" b!"a"), .msg (Ex.message b!"1" b!"b"), .err (.error (Frame.new Cmd.error [(Hdr.message, b!"connection closed")]))] ∧
    (Ex.endReadAll.sys.subs[0]?.map (·.buf)) = some [] ∧ Spec.OnlyRead 0 Ex.readAll := by unfold Spec.OnlyRead; decide +kernel

-- `C59_returns` and case (a) of `C59_completed_partial`: that last call.
example : (Ex.endReadAll.readers[3]?.map (·.pc)) = some .recv ∧ Ex.endReadAll.sys.crashed = none ∧
    ((Ex.endReadAll.step Ex.cfg (.read 3)).bind fun x => x.readers[3]?.map (·.pc)) = some (.ret .completed) ∧
    (Ex.endReadAll.sys.subs[0]?.map fun b => (b.cClosed, b.buf)) = some (true, []) := by decide +kernel

-- Case (c) of `C59_completed_partial`.
example : ∃ rd, Ex.endReadAtEnd.readers[0]? = some rd ∧ Spec.ReadReturned Ex.endReadAtEnd2 0 .completed ∧ ¬ Spec.Unsubscribed Ex.endReadAtEnd.sys 0 := by
  refine ⟨⟨0, .start⟩, by decide +kernel, ⟨⟨0, .ret .completed⟩, by decide +kernel, rfl⟩, ?_⟩
  rintro ⟨t, th, o, ht, hc⟩
  have hl : Ex.endReadAtEnd.sys.threads = [⟨.subscribe b!"/q" .auto [], .ret .ok, .none⟩] := by decide +kernel
  rw [hl] at ht
  match t, ht with
  | 0, ht => cases ht; cases hc

end Stomp.Client
