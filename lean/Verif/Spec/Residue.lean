import Verif.Spec.Subscriptions
import Verif.Spec.Queue
import Verif.Model.Server.Conn
/-! # What a client of the server is still sent when it has gone silent -/
namespace Stomp.Server
open Stomp

/-- What may be written to a client that has gone silent: heart-beats, and messages for subscriptions it has asked for; those of queues only if the subscription is open. -/
def Spec.Residue (hist : List Frame) (w : Wr) : Prop :=
  w.frame = none ∨ ∃ g, w.frame = some g ∧ g.command = b!"MESSAGE" ∧
    (∃ i d, Spec.hdr g b!"subscription" = some i ∧ Spec.hdr g b!"destination" = some d ∧ (i, d) ∈ hist.filterMap Spec.opens) ∧
    ((∃ d, Spec.hdr g b!"destination" = some d ∧ Spec.IsQueue d) → ∃ i d, Spec.hdr g b!"subscription" = some i ∧ (i, d) ∈ Spec.openSubs hist)

end Stomp.Server
