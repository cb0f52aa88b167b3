import Verif.Spec.Joint
import Verif.Spec.QueueOrder
/-! # Specification: every message of a queue once -/
namespace Stomp.Server.Spec
open Stomp Stomp.Server

/-- The connection is open, and its client has refused no message and given up no subscription. -/
def Accepting (k : Conn) : Prop := k.stage = .run ∧ ∀ f ∈ k.hist, f.command ≠ b!"NACK" ∧ f.command ≠ b!"UNSUBSCRIBE"

end Stomp.Server.Spec

namespace Stomp.Joint.Spec
open Stomp

/-- The program never refuses a message. -/
def Takes (p : Peer) : Prop := ∀ t r, .accepted t r ∈ p.client.trace → r.frame.command ≠ b!"NACK"

/-- The messages of queue `d` that the program has got: on `C` of its subscriptions. -/
def gotFrom (d : Bytes) (p : Peer) : List Frame :=
  p.client.subs.flatMap fun b => (Stomp.Spec.messagesOn b).filter fun f => decide (Stomp.Spec.firstValue f.header b!"destination" = some d)

/-- The messages for destination `d` among the frames of connection `c` that took effect. -/
def sentFrom (d : Bytes) (c : Nat) (k : Server.Conn) : List Server.Tag :=
  ((Server.Spec.messages c 0 k.effective).filter fun m => decide (Server.Spec.target m = some d)).map (·.tag)

/-- The messages for destination `d` of all connections. -/
def allSent (d : Bytes) (s : Server.Sys) : List Server.Tag := s.conns.zipIdx.flatMap fun x => sentFrom d x.2 x.1

end Stomp.Joint.Spec
