import Verif.Model.Client.Bodies
import Verif.Spec.Client
/-! # When a program may write to the array that a body it has given to the client is in -/
namespace Stomp.Client.Spec
open Stomp

/-- The body of call `t` has still to be read by the writer: the call has not yet handed over its frame, or the frame waits in `writeCh`. -/
def Unwritten (x : BSys) (t : Nat) : Prop :=
  t ∈ x.owners ∨ ∃ th, x.sys.threads[t]? = some th ∧ (th.pc = .start ∨ (∃ f, th.pc = .lock f) ∨ ∃ r, th.pc = .push r)

/-- The writer has no more use for the body of call `t`, as far as the program can see: the call has asked for a receipt and returned nil. -/
def Confirmed (x : BSys) (t : Nat) : Prop :=
  ∃ call r, Returned x.sys t call .ok ∧ .accepted t r ∈ x.sys.trace ∧ (r.frame.header.contains Hdr.receipt).isSome = true

/-- `safe x t` holds of every call `t` whose body is in an array when the program writes to that array. -/
def Careful (safe : BSys → Nat → Prop) (cfg : Cfg) : BSys → List BEv → Prop
  | _, [] => True
  | x, e :: es =>
    (∀ k b, e = .write k b → ∀ t : Nat, x.uses[t]? = some (some k) → safe x t) ∧
    ∀ x', x.step cfg e = some x' → Careful safe cfg x' es

/-- A frame without the bytes of its body. -/
def shape (f : Frame) : Bytes × Header × Nat := (f.command, f.header, f.body.length)

end Stomp.Client.Spec
