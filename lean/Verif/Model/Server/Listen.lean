import Verif.Model.Client.Options
/-!
# The accept loop: `requestProcessor.Listen` (`server/processor.go:102-130`)
-/
namespace Stomp.Server
open Stomp

/-- Outcome of `l.Accept()`. -/
inductive AcceptRes | conn | temporary | permanent
  deriving DecidableEq, Repr

/-- What the loop does on one outcome. -/
inductive ListenAct | serve | sleep (d : Int) | stop
  deriving DecidableEq, Repr

/-- One iteration (`server/processor.go:105-127`): new timeout and action. -/
def listenStep (timeout : Int) : AcceptRes → Int × ListenAct
  | .temporary =>
    let t := if timeout = 0 then 5 * millisecond else timeout * 2
    let t := if t > 5 * Client.second then 5 * Client.second else t
    (t, .sleep t)
  | .permanent => (timeout, .stop)
  | .conn => (0, .serve)

/-- The loop on a sequence of outcomes; it ends at a permanent error. -/
def listen : Int → List AcceptRes → List ListenAct
  | _, [] => []
  | t, r :: rs =>
    match listenStep t r with
    | (_, .stop) => [.stop]
    | (t', a) => a :: listen t' rs

end Stomp.Server
