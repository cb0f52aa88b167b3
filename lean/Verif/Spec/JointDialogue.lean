import Verif.Spec.Dialogue
import Verif.Spec.Joint
/-! # Specification: why a call failed -/
namespace Stomp.Joint.Spec
open Stomp

/-- The ERROR frames a client tells its callers about which no server has sent, by their texts. (`write error` stands for whatever the operating
system says.) -/
def inventions : List Frame :=
  [b!"read timeout", b!"write error", b!"connection closed", b!"missing receipt-id", b!"write channel closed"].map fun t =>
    ⟨b!"ERROR", [(b!"message", t)], []⟩

/-- The server has refused a frame of this client, for the reason `t`. -/
def RefusedFor (cfg : Server.Config) (p : Peer) (k : Server.Conn) (t : Bytes) : Prop :=
  ∃ fs f st said late, fs ++ [f] <+: k.hist ∧ (f = p.hello ∨ .sent f ∈ p.client.trace) ∧
    Server.Spec.Dialogue cfg.auth cfg.heartBeat fs st said ∧ Server.Spec.Refused cfg.auth cfg.parseErr st f late t

end Stomp.Joint.Spec
