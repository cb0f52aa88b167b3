import Verif.Spec.Session
import Verif.Model.Server.System
/-!
# Specification of acknowledgements
-/
namespace Stomp.Server.Spec
open Stomp

/-- A message that has been written to the client and waits for its acknowledgement. -/
structure Pending where
  tag : Tag
  id : Option Bytes
  mode : Bytes
  deriving DecidableEq

/-- The pending messages of a connection: those its subscriptions hold, with the `message-id` they were sent with and
the `ack` mode of the subscription. -/
def pendings (k : Conn) : List Pending :=
  k.subList.filterMap (fun i => (k.heap[i]?).bind (fun x => x.frame.map (fun m => ⟨m.tag, hdr m.frame b!"message-id", x.ack⟩)))

/-- The number of a message. -/
def Numbered (p : Pending) (j : Nat) : Prop := ∃ v, p.id = some v ∧ Stomp.Spec.Numeral v j

/-- What an ACK for `n` has to release. -/
def AckReleases (n : Nat) (p : Pending) : Prop :=
  ∃ j, Numbered p j ∧ (p.mode = b!"client" ∧ j ≤ n ∨ p.mode = b!"client-individual" ∧ j = n)

/-- What a NACK for `n` has to release. -/
def NackReleases (n : Nat) (p : Pending) : Prop := Numbered p n

/-- Of the list `l`, exactly the elements satisfying `P` are gone; the others stay, in order. -/
def Releases {α : Type} (P : α → Prop) (l l' : List α) : Prop := l'.Sublist l ∧ ∀ p ∈ l, p ∈ l' ↔ ¬P p

end Stomp.Server.Spec
