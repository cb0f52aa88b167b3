import Verif.Model.Client.System
/-! # What the properties of the client as a whole talk about: the log of an execution -/
namespace Stomp.Client.Spec
open Stomp

/-- The call has returned `r`. -/
def Returned (s : Sys) (t : Nat) (call : Call) (r : Res) : Prop :=
  ∃ th, s.threads[t]? = some th ∧ th.call = call ∧ th.pc = .ret r

/-- The requests handed to the writer so far, in the order in which it accepted them. -/
def handedOver (s : Sys) : List Req :=
  s.trace.filterMap fun o => match o with
    | .accepted _ r => some r
    | _ => none

/-- The frames written so far (heart-beats are not frames). -/
def written (s : Sys) : List Frame :=
  s.trace.filterMap fun o => match o with
    | .sent f => some f
    | _ => none

/-- SUBSCRIBE and UNSUBSCRIBE for a temporary (reply-to) queue. -/
def TempQueue (f : Frame) : Prop :=
  (f.command = Cmd.subscribe ∨ f.command = Cmd.unsubscribe) ∧ f.header.contains Hdr.replyTo ≠ none

instance (f : Frame) : Decidable (TempQueue f) := by unfold TempQueue; infer_instance

/-- What goes over the wire for a frame handed to the writer: nothing for a temporary queue, the frame itself
otherwise, an UNSUBSCRIBE being tagged with a receipt header carrying its id. -/
def wire (f : Frame) : Option Frame :=
  if TempQueue f then none
  else if f.command = Cmd.unsubscribe then
    some { f with header := f.header.set Hdr.receipt ((f.header.contains Hdr.id).getD []) }
  else some f

/-- `f` is a frame that the call makes (`last`: value of the id counter, which the call may find at any value). -/
def FrameOf (s : Sys) (call : Call) (f : Frame) : Prop :=
  match call with
  | .send d c b o => ∃ last last', createSendFrame last d c b o = some (last', f)
  | .frame g => f = g ∧ g.command ∈ rawCommands
  | .subscribe d a o => ∃ last last' id rt, createSubscribeFrame last d a o = some (last', f, id, rt)
  | .unsubscribe i o => ∃ b, s.subs[i]? = some b ∧ createUnsubscribeFrame b.id b.replyTo o = some f
  | .disconnect => ∃ last, f = Frame.new Cmd.disconnect [(Hdr.receipt, (allocateId last).2)]
  | .mustDisconnect => False

/-- What is read with the key `k` is an answer to a request with frame `f`: `k` is its receipt header, or it is a
SUBSCRIBE for the subscription `k`. -/
def Registers (f : Frame) (k : Bytes) : Prop :=
  f.header.contains Hdr.receipt = some k ∨
  (f.command = Cmd.subscribe ∧ (f.header.contains Hdr.replyTo).getD ((f.header.contains Hdr.id).getD []) = k)

instance (f : Frame) (k : Bytes) : Decidable (Registers f k) := by unfold Registers; infer_instance

/-- Every key is that of one request, and no SUBSCRIBE asks for a receipt. -/
structure Distinct (s : Sys) : Prop where
  uniq : ∀ t r t' r' k, .accepted t r ∈ s.trace → .accepted t' r' ∈ s.trace → r.chan ≠ none → r'.chan ≠ none →
    Registers r.frame k → Registers r'.frame k → t = t'
  noReceipt : ∀ t r, .accepted t r ∈ s.trace → r.frame.command = Cmd.subscribe → r.frame.header.contains Hdr.receipt = none

/-- Whether a subscription is on, and the MESSAGE frames for it so far. -/
structure Watch where
  on : Bool
  due : List Frame
  deriving DecidableEq, Repr

/-- A subscription with id `k` begins when `processLoop` takes the request with its response channel `n`, and
ends when the RECEIPT with its id is taken from the network, or the UNSUBSCRIBE of a temporary queue from a
caller. In between it is due every MESSAGE taken from the network with its id. -/
def watch (n : Nat) (k : Bytes) (w : Watch) : Obs → Watch
  | .taken r =>
    if r.chan = some n then { w with on := true }
    else if r.frame.command = Cmd.unsubscribe ∧ r.frame.header.contains Hdr.replyTo = some k then { w with on := false }
    else w
  | .took (some f) =>
    if f.command = Cmd.message then
      if f.header.contains Hdr.subscription = some k ∧ w.on = true then { w with due := w.due ++ [f] } else w
    else if f.command = Cmd.receipt ∧ f.header.contains Hdr.receiptId = some k then { w with on := false }
    else w
  | _ => w

/-- The frames due to the subscription with id `k` and response channel `n`. -/
def due (n : Nat) (k : Bytes) (tr : List Obs) : Watch := tr.foldl (watch n k) ⟨false, []⟩

end Stomp.Client.Spec
