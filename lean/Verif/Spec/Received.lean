import Verif.Model.Server.System
/-! # Specification: what a connection receives -/
namespace Stomp.Server.Spec
open Stomp

/-- The frames connection `c` receives in an execution, in order. -/
def receivedBy (c : Nat) (es : List Sys.Ev) : List Frame :=
  es.flatMap (fun | .conn j (.recv f) => if j = c then [f] else [] | _ => [])

end Stomp.Server.Spec
