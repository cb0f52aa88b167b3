import Verif.Proofs.Client.Bodies
/-!
# C79: the body on the wire is the one given to the call

False as worded: the client keeps the caller's slice, so a program that uses its array again after `Send` has returned changes a message it has sent before.
-/
namespace Stomp.Client
open Stomp

namespace BodyEx

def cfg : Cfg := ⟨20, 20, false, true, false, false, false, false⟩

/-- `Send` without a receipt of the body in array 0. -/
def sent : List BEv := [.call (.send b!"/queue/a" [] b!"one" []) (some 0), .sys (.thread 0), .sys (.thread 0)]

/-- `Send` of a transaction, of the body in array 0. -/
def inTx : Call := .frame ⟨b!"SEND", [(b!"destination", b!"/queue/a"), (b!"content-length", b!"3"), (b!"transaction", b!"1")], b!"one"⟩

def sentTx : List BEv := [.call inTx (some 0), .sys (.thread 0), .sys (.thread 0)]

/-- `Send` with a receipt, which does not come in time. -/
def late : List BEv :=
  [.call (.send b!"/queue/a" [] b!"one" [.receipt]) (some 0), .sys (.thread 0), .sys (.thread 0), .sys (.timeout 0)]

/-- `Send` with a receipt, which comes. -/
def confirmed : List BEv :=
  [.call (.send b!"/queue/a" [] b!"one" [.receipt]) (some 0), .sys (.thread 0), .sys (.thread 0), .sys (.loopWrite true []),
   .sys (.net (some (Frame.new Cmd.receipt [(Hdr.receiptId, b!"1")]))), .sys (.loopRead []), .sys (.deliver true)]

/-- The array is used again, for a second message. -/
def again : List BEv :=
  [.write 0 b!"two", .call (.send b!"/queue/a" [] b!"two" []) (some 0), .sys (.thread 1), .sys (.thread 1), .sys (.loopWrite true [])]

/-- Two messages on `writeCh`. -/
def both : List BEv := again ++ [.sys (.loopWrite true [])]

def start : BSys := BSys.init 0 [b!"one"]

def after (es : List BEv) : BSys := (start.run cfg es).getD start

theorem run_after {es : List BEv} (h : (start.run cfg es).isSome = true) : start.run cfg es = some (after es) := by
  unfold after
  cases hx : start.run cfg es with
  | none => rw [hx] at h; cases h
  | some x => rfl

end BodyEx

/-- The claim is false: `Send` of "one" has returned nil, then the program uses its array for "two", and "two" goes over the wire twice. -/
theorem C79_false : ∃ (cfg : Cfg) (n : Nat) (bufs : List Bytes) (es es' : List BEv) (x x' : BSys) (c : Call),
    (BSys.init n bufs).run cfg es = some x ∧ Spec.Returned x.sys 0 c .ok ∧ c.body = some b!"one" ∧ x.run cfg es' = some x' ∧
    x'.wire.map (·.body) = [b!"two", b!"two"] ∧ (Spec.written x'.sys).map (·.body) = [b!"one", b!"two"] := by
  refine ⟨BodyEx.cfg, 0, [b!"one"], BodyEx.sent, BodyEx.both, BodyEx.after BodyEx.sent, BodyEx.after (BodyEx.sent ++ BodyEx.both), _,
    BodyEx.run_after (by decide +kernel), ⟨((BodyEx.after BodyEx.sent).sys.threads[0]?).get (by decide +kernel), ?_, rfl, ?_⟩, ?_, ?_, ?_, ?_⟩
  all_goals decide +kernel

/-- Nor is an error a sign that the body is not needed any more: `Send` has returned that no receipt came in time, and the frame is yet to be written. -/
theorem C79_late_false : ∃ (cfg : Cfg) (n : Nat) (bufs : List Bytes) (es es' : List BEv) (x x' : BSys) (c : Call),
    (BSys.init n bufs).run cfg es = some x ∧ Spec.Returned x.sys 0 c .receiptTimeout ∧ c.body = some b!"one" ∧ x.run cfg es' = some x' ∧
    x'.wire.map (·.body) = [b!"two", b!"two"] ∧ (Spec.written x'.sys).map (·.body) = [b!"one", b!"two"] := by
  refine ⟨BodyEx.cfg, 0, [b!"one"], BodyEx.late, BodyEx.both, BodyEx.after BodyEx.late, BodyEx.after (BodyEx.late ++ BodyEx.both), _,
    BodyEx.run_after (by decide +kernel), ⟨((BodyEx.after BodyEx.late).sys.threads[0]?).get (by decide +kernel), ?_, rfl, ?_⟩, ?_, ?_, ?_, ?_⟩
  all_goals decide +kernel

/-- The same with `Send` of a transaction. -/
theorem C79_transaction_false : ∃ (cfg : Cfg) (n : Nat) (bufs : List Bytes) (es es' : List BEv) (x x' : BSys),
    (BSys.init n bufs).run cfg es = some x ∧ Spec.Returned x.sys 0 BodyEx.inTx .ok ∧ BodyEx.inTx.body = some b!"one" ∧ x.run cfg es' = some x' ∧
    x'.wire.map (·.body) = [b!"two", b!"two"] ∧ (Spec.written x'.sys).map (·.body) = [b!"one", b!"two"] := by
  refine ⟨BodyEx.cfg, 0, [b!"one"], BodyEx.sentTx, BodyEx.both, BodyEx.after BodyEx.sentTx, BodyEx.after (BodyEx.sentTx ++ BodyEx.both),
    BodyEx.run_after (by decide +kernel), ⟨((BodyEx.after BodyEx.sentTx).sys.threads[0]?).get (by decide +kernel), ?_, ?_, ?_⟩, ?_, ?_, ?_, ?_⟩
  all_goals decide +kernel

/-- What is missing is that the program may use the array again as soon as the call has returned. If it writes to an array only when no body in it has still to be read by the writer, the frames on the
wire are those the calls made. -/
theorem C79_unwritten_partial {cfg : Cfg} {n : Nat} {bufs : List Bytes} {es : List BEv} {x : BSys}
    (hc : Spec.Careful (fun x t => ¬ Spec.Unwritten x t) cfg (BSys.init n bufs) es) (h : (BSys.init n bufs).run cfg es = some x) :
    x.wire = Spec.written x.sys :=
  (kept_run (body_init n bufs) (kept_init n bufs) hc h).wire

/-- The same with what the program can see: an array may be written to once all the calls that were given a body in it have asked for a receipt and returned nil. -/
theorem C79_receipt_partial {cfg : Cfg} {n : Nat} {bufs : List Bytes} {es : List BEv} {x : BSys}
    (hc : Spec.Careful Spec.Confirmed cfg (BSys.init n bufs) es) (h : (BSys.init n bufs).run cfg es = some x) :
    x.wire = Spec.written x.sys :=
  C79_unwritten_partial (careful_confirmed (body_init n bufs) hc) h

/-- Whatever the program does with its arrays: the frames on the wire have the commands, the headers and the lengths of the bodies of the frames the calls made (so the content-length header stays true). -/
theorem C79_shape {cfg : Cfg} {n : Nat} {bufs : List Bytes} {es : List BEv} {x : BSys} (h : (BSys.init n bufs).run cfg es = some x) :
    x.wire.map Spec.shape = (Spec.written x.sys).map Spec.shape :=
  shape_run (body_init n bufs) rfl h

namespace BodyEx

/-- Written to after the receipt: nothing is wrong. -/
theorem careful : Spec.Careful Spec.Confirmed cfg start (confirmed ++ again) := by
  have skip : ∀ {e : BEv} {es : List BEv} {x x' : BSys}, (∀ k b, e ≠ .write k b) → x.step cfg e = some x' → Spec.Careful Spec.Confirmed cfg x' es →
      Spec.Careful Spec.Confirmed cfg x (e :: es) := by
    intro e es x x' hw hx h
    exact ⟨fun k b he => absurd he (hw k b), fun x1 h1 => by rw [hx] at h1; cases h1; exact h⟩
  have nil : ∀ {es : List BEv} {x : BSys}, (es.all fun e => match e with | .write .. => false | _ => true) = true → Spec.Careful Spec.Confirmed cfg x es := by
    intro es
    induction es with
    | nil => intros; trivial
    | cons e es ih =>
      intro x h
      simp only [List.all_cons, Bool.and_eq_true] at h
      exact ⟨fun k b he => by subst he; simp at h, fun x' _ => ih h.2⟩
  have pre : ∀ {l es : List BEv} {x x' : BSys}, (l.all fun e => match e with | .write .. => false | _ => true) = true → x.run cfg l = some x' →
      Spec.Careful Spec.Confirmed cfg x' es → Spec.Careful Spec.Confirmed cfg x (l ++ es) := by
    intro l
    induction l with
    | nil => intro es x x' _ h hc; cases h; exact hc
    | cons e l ih =>
      intro es x x' h hr hc
      simp only [List.all_cons, Bool.and_eq_true] at h
      obtain ⟨x1, h1, h2⟩ := Option.bind_eq_some_iff.1 hr
      exact skip (fun k b he => by subst he; simp at h) h1 (ih h.2 h2 hc)
  refine pre (by decide) (run_after (es := confirmed) (by decide +kernel)) ⟨?_, fun x' _ => nil (by decide)⟩
  intro k b he t ht
  have h0 : t = 0 := by
    have : (after confirmed).uses.length = 1 := by decide +kernel
    have := (List.getElem?_eq_some_iff.1 ht).1
    omega
  subst h0
  refine ⟨.send b!"/queue/a" [] b!"one" [.receipt], (((acceptedIn (after confirmed).sys.trace)[0]?).get (by decide +kernel)).2,
    ⟨((after confirmed).sys.threads[0]?).get (by decide +kernel), ?_, ?_, ?_⟩, ?_, ?_⟩
  all_goals decide +kernel

example : start.run cfg (confirmed ++ again) = some (after (confirmed ++ again)) ∧ Spec.Careful Spec.Confirmed cfg start (confirmed ++ again) ∧
    Spec.Careful (fun x t => ¬ Spec.Unwritten x t) cfg start (confirmed ++ again) ∧
    (after (confirmed ++ again)).wire.map (·.body) = [b!"one", b!"two"] :=
  ⟨run_after (by decide +kernel), careful, careful_confirmed (body_init _ _) careful, by decide +kernel⟩

/-- Written to too early. -/
example : start.run cfg (sent ++ both) = some (after (sent ++ both)) ∧ (after (sent ++ both)).wire ≠ Spec.written (after (sent ++ both)).sys :=
  ⟨run_after (by decide +kernel), by decide +kernel⟩

end BodyEx

end Stomp.Client
