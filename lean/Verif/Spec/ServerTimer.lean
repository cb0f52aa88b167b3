import Verif.Model.Server.Timer
import Verif.Spec.Session
/-! # Specification: the heart-beats a server connection has announced, and what it transmits and receives -/
namespace Stomp.Server.Spec
open Stomp

/-- The server has answered with a CONNECTED frame that announces `a` and `b` (milliseconds): it will send something at least every `a`, and expects something at least every `b`. -/
def Announced (c : Conn) (a b : Nat) : Prop :=
  ∃ w ∈ c.out, ∃ g, w.frame = some g ∧ g.command = b!"CONNECTED" ∧
    ∃ u v, hdr g b!"heart-beat" = some (u ++ b!"," ++ v) ∧ Stomp.Spec.Numeral u a ∧ Stomp.Spec.Numeral v b

/-- Nanoseconds in a number of milliseconds. -/
def ms (n : Nat) : Nat := n * 1000000

/-- The connection is up: `processLoop` has not left its loop, no write has failed, and the process has not panicked. -/
structure Up (c : Conn) : Prop where
  loop : c.stage = .run
  writes : c.wfail = false
  panics : .panic ∉ c.outbox

/-- `readLoop` has finished reading a frame or a heart-beat, or has handed a frame over. -/
def Progress : TObs → Prop
  | .item _ => True
  | .pushed => True
  | _ => False

/-- A message or a heart-beat was written (not an answer: CONNECTED, RECEIPT, ERROR). -/
def Stream (w : Wr) : Prop := w.frame = none ∨ ∃ f, w.frame = some f ∧ f.command = b!"MESSAGE"

end Stomp.Server.Spec
