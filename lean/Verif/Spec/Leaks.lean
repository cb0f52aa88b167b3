import Verif.Model.Client.Reader
import Verif.Model.Server.Timer
import Verif.Spec.ClientBusy
/-! # Specification: goroutines that stay behind -/
namespace Stomp.Client.Spec
open Stomp Stomp.Client

/-- Number of frames (and heart-beats) that `readLoop` has passed on. -/
def readCount (s : Sys) : Nat := s.trace.countP fun o => match o with
  | .read _ => true
  | _ => false

/-- Number of frames (and heart-beats) that `processLoop` has taken. -/
def takenCount (s : Sys) : Nat := s.trace.countP fun o => match o with
  | .took _ => true
  | _ => false

/-- What the client does by itself without waiting for a timer, if reads on a network connection that is closed fail. -/
def ReadPrompt (x : HSys) : HSys.Ev → Prop
  | .read _ => False
  | .push => True
  | .fail => x.sys.netClosed = true
  | .other e => Prompt e

/-- The client, including `readLoop`, can do nothing by itself. -/
def ReadStill (cfg : Cfg) (x : HSys) : Prop := ∀ e, ReadPrompt x e → x.step cfg e = none

/-- The goroutine started by `waitWithTimeout` does not exist, or has ended, or sleeps and has not been woken. -/
inductive HelperRest (s : Sys) (th : Thread) : Prop
  | absent (h : th.helper = .none ∨ th.helper = .done)
  | asleep {i k : Nat} {o : List SubOpt} {b : Sub} (h : th.helper = .asleep k) (hc : th.call = .unsubscribe i o) (hb : s.subs[i]? = some b) (hk : b.notified ≤ k)

end Stomp.Client.Spec

namespace Stomp.Server.Spec
open Stomp Stomp.Server

/-- What the goroutines of a connection do by themselves when their client sends nothing, no timer fires, and reads on a closed connection fail. `flushed` is the processor's receiving. -/
def ConnOwn (x : TConn) : TConn.Ev → Prop
  | .push => True
  | .fail => x.conn.stage = .closed
  | .step (.frame ..) | .step .readClosed | .step (.wr _) | .step (.sub _) | .step .clean | .step (.cleanUnsub _) | .step .flushed => True
  | _ => False

end Stomp.Server.Spec
