import Verif.Proofs.Client.Closed
import Verif.Proofs.Client.ClosedBy
import Verif.Spec.Client
/-!
# C19, C20: no use of a closed `writeCh`; closed means closed
-/
namespace Stomp.Client
open Stomp

namespace Spec

/-- What a call returns that begins after the connection was closed; `none`: the property says nothing
(`Unsubscribe` has its own results). -/
def resultWhenClosed : Call → Option Res
  | .send .. => some .alreadyClosed
  | .frame _ | .subscribe .. => some .closedUnexpectedly
  | .disconnect | .mustDisconnect => some .ok
  | .unsubscribe .. => none

/-- The events after which the connection is closed for good: `Disconnect` returned nil (or the error of
`net.Conn.Close`) or a receipt timeout, `MustDisconnect` returned, `processLoop` ended (after an ERROR frame of
the server or the loss of the connection). -/
def ClosedForGood (s : Sys) : Prop :=
  (∃ t r, Returned s t .disconnect r ∧ (r = .ok ∨ r = .closeError ∨ r = .disconnectTimeout)) ∨
  (∃ t r, Returned s t .mustDisconnect r) ∨ s.loop = .done

end Spec

theorem handedOver_eq (s : Sys) : Spec.handedOver s = (acceptedIn s.trace).map (·.2) := by
  simp only [Spec.handedOver, acceptedIn, List.map_filterMap]
  congr 1
  funext o
  cases o <;> rfl

theorem by_run {cfg : Cfg} {n : Nat} {s : Sys} {es : List Ev} (h : (Sys.init n).run cfg es = some s) : ByInv s :=
  run_induction (P := ByInv) (fun _ _ _ hp h => by_step hp (step_cases h).2) es _ _
    ⟨by intro t th ht; simp [Sys.init] at ht, by intro h; cases h⟩ h

/-- **C19.** In no execution does anything panic by sending on, or closing, the closed `writeCh`. -/
theorem C19_writeCh {cfg : Cfg} {n : Nat} {es : List Ev} {s : Sys} (h : (Sys.init n).run cfg es = some s) :
    s.crashed ≠ some .sendWriteCh ∧ s.crashed ≠ some .closeWriteCh :=
  (lock_run (lock_init n) h).panic

/-- **C20**, when: after any of the events named by the property the flag `closed` is set. -/
theorem C20_closed {cfg : Cfg} {n : Nat} {es : List Ev} {s : Sys} (h : (Sys.init n).run cfg es = some s)
    (hc : Spec.ClosedForGood s) : s.closed = true := by
  have hi := by_run h
  rcases hc with ⟨t, r, ⟨th, ht, hcall, hpc⟩, hr⟩ | ⟨t, r, th, ht, hcall, hpc⟩ | hl
  · refine (hi.th t th ht).2 ?_
    rcases hr with rfl | rfl | rfl <;> simp [Thread.closedBy, hcall, hpc]
  · exact (hi.th t th ht).2 (by simp [Thread.closedBy, hcall, hpc])
  · exact hi.loop hl

/-- **C20**, from then on: the connection stays closed, nothing more is handed to the writer by any call, and
every call that begins from then on (or had not got hold of the connection's mutex yet) returns the error of a
closed connection if it returns. -/
theorem C20_stays {cfg : Cfg} {n : Nat} {es es' : List Ev} {s s' : Sys} (h : (Sys.init n).run cfg es = some s)
    (hc : Spec.ClosedForGood s) (h' : s.run cfg es' = some s') :
    s'.closed = true ∧ Spec.handedOver s' = Spec.handedOver s ∧
    ∀ t call r, (∀ th, s.threads[t]? = some th → th.pc = .start) → Spec.Returned s' t call r →
      Spec.resultWhenClosed call = none ∨ Spec.resultWhenClosed call = some r := by
  have hcl := C20_closed h hc
  have hi : Shut (fun t => ∀ th, s.threads[t]? = some th → th.pc = .start) (acceptedIn s.trace) s := by
    refine ⟨lock_run (lock_init n) h, hcl, rfl, ?_⟩
    intro t th hl ht
    have := hl th ht
    cases hcall : th.call <;> simp [Thread.shut, hcall, this]
  have hi' := run_induction (fun _ _ _ hp h => shut_step hp h) es' s s' hi h'
  refine ⟨hi'.closed, ?_, ?_⟩
  · rw [handedOver_eq, handedOver_eq, hi'.acc]
  · rintro t call r hl ⟨th, ht, rfl, hpc⟩
    have hs := hi'.shut t th hl ht
    cases hcall : th.call <;> simp_all [Thread.shut, Spec.resultWhenClosed]

/-- **C20**, they do return: when the connection is closed nothing can keep such a call from returning. -/
theorem C20_returns {cfg : Cfg} {n : Nat} {es : List Ev} {s : Sys} {t : Nat} {th : Thread} {r : Res}
    (h : (Sys.init n).run cfg es = some s) (hc : Spec.ClosedForGood s) (hp : s.crashed = none)
    (ht : s.threads[t]? = some th) (hs : th.pc = .start) (hr : Spec.resultWhenClosed th.call = some r) :
    ∃ s', s.step cfg (.thread t) = some s' ∧ Spec.Returned s' t th.call r := by
  have hcl := C20_closed h hc
  have hm : s.mutex = none := by
    cases hm : s.mutex with
    | none => rfl
    | some u =>
      have hi := lock_run (lock_init n) h
      obtain ⟨thu, hu, hh⟩ := hi.held u hm
      have := (hi.hold u thu hu hh).2
      simp [hcl] at this
  have key : ∀ (s1 : Sys), s1.threads = s.threads → Spec.Returned (s1.ret t r) t th.call r := by
    intro s1 h1
    refine ⟨{ th with pc := .ret r }, ?_, rfl, rfl⟩
    simp [Sys.ret, Sys.goto, Sys.log, h1, ht]
  cases hcall : th.call <;> rw [hcall] at hr <;> simp only [Spec.resultWhenClosed, Option.some.injEq] at hr <;>
    first | (exact absurd hr (by simp)) | subst hr
  all_goals rw [hcall] at key
  all_goals simp only [Sys.step, Sys.thread, hp, ht, hs, hcall, Sys.begin, Sys.frameEnter, hm, hcl, Sys.frameDone,
    Option.isSome_none, if_true, Bool.false_eq_true, if_false]
  all_goals first
    | exact ⟨_, rfl, key s rfl⟩
    | exact ⟨_, rfl, key s.closeNet rfl⟩

/-! ## Examples -/

namespace Ex

def cfg : Cfg :=
  { readCap := 20, writeCap := 20, sendTimeout := true, receiptTimeout := true, disconnectTimeout := true,
    unsubTimeout := true, readTimeout := true, writeTimeout := true }

def receiptFrame (id : Bytes) : Frame := Frame.new Cmd.receipt [(Hdr.receiptId, id)]

/-- A SEND, a graceful `Disconnect`, then two more calls. -/
def goodbye : List Ev :=
  [.call (.send b!"/q" [] b!"x" []), .thread 0, .thread 0,
   .call .disconnect, .thread 1, .thread 1, .loopWrite true [], .loopWrite true [],
   .net (some (receiptFrame b!"1")), .loopRead [], .deliver true]

def after : List Ev :=
  [.call (.send b!"/q" [] b!"y" []), .call (.subscribe b!"/q" .auto []), .call .mustDisconnect, .netErr,
   .thread 2, .loopRead [], .thread 3, .finish, .thread 4]

def end1 : Sys := ((Sys.init 0).run cfg goodbye).getD (Sys.init 0)
def end2 : Sys := (end1.run cfg after).getD (Sys.init 0)

theorem goodbye_run : (Sys.init 0).run cfg goodbye = some end1 := by decide +kernel
theorem after_run : end1.run cfg after = some end2 := by decide +kernel

end Ex

-- A run with a closed write channel, in which requests were put on it and the loop ended.
example : ((Sys.init 0).run Ex.cfg [.call (.send b!"/q" [] b!"x" []), .thread 0, .thread 0,
    .call .mustDisconnect, .thread 1, .call (.send b!"/q" [] b!"y" []), .thread 2, .loopWrite false [],
    .finish]).map (fun s => (s.writeClosed, s.loop, s.crashed, s.threads.map (·.pc))) =
    some (true, .done, none, [.ret .ok, .ret .ok, .ret .alreadyClosed]) := by decide +kernel

-- The hypotheses of the C20 theorems hold of a state reached by a run, and the calls made later returned.
example : Spec.ClosedForGood Ex.end1 :=
  .inl ⟨1, .ok, ⟨⟨.disconnect, .ret .ok, .none⟩, by decide +kernel, rfl, rfl⟩, .inl rfl⟩
example : Ex.end2.threads.map (·.pc) =
    [.ret .ok, .ret .ok, .ret .alreadyClosed, .ret .closedUnexpectedly, .ret .ok] := by decide +kernel
example : Ex.end2.loop = .done ∧ Ex.end2.crashed = none ∧ (Spec.handedOver Ex.end2).length = 2 := by decide +kernel
-- After an ERROR frame of the server.
example : ((Sys.init 0).run Ex.cfg [.call (.frame (Frame.new Cmd.begin_ [(Hdr.transaction, b!"t")])), .thread 0,
    .thread 0, .net (some (Frame.new Cmd.error [])), .loopRead [], .finish]).map
      (fun s => (s.loop, s.closed, s.writeClosed, s.threads.map (·.pc))) =
    some (.done, true, false, [.ret .ok]) := by decide +kernel

end Stomp.Client
