import Verif.Spec.Session
import Verif.Model.Client.System
/-! # Specification: calls that the server of this library has no reason to refuse -/
namespace Stomp.Joint.Spec
open Stomp

/-- Calls that have nothing to do with transactions. An ACK or NACK names its message by a number, where the server looks for it. -/
def Modest : Client.Call → Prop
  | .send _ _ _ opts => ∀ v, .header b!"transaction" v ∉ opts
  | .frame f => (f.command = b!"SEND" ∨ (f.command = b!"ACK" ∨ f.command = b!"NACK") ∧ ∃ n, Server.Spec.names f n) ∧ Server.Spec.hdr f b!"transaction" = none
  | .subscribe .. => True
  | .unsubscribe .. => True
  | .disconnect => True
  | .mustDisconnect => True

/-- Calls for the next theorem, which has a condition of its own for the frames of transactions: an ACK or NACK names its message by a number, and BEGIN, COMMIT and ABORT name a transaction. -/
def Civil : Client.Call → Prop
  | .frame f => (f.command = b!"ACK" ∨ f.command = b!"NACK" → ∃ n, Server.Spec.names f n) ∧
      (f.command = b!"BEGIN" ∨ f.command = b!"COMMIT" ∨ f.command = b!"ABORT" → Server.Spec.hdr f b!"transaction" ≠ none)
  | _ => True

end Stomp.Joint.Spec
