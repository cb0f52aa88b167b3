import Verif.Model.Client.Stats
/-! # What the counters are compared with -/
namespace Stomp.Client.Spec
open Stomp

/-- Calls that wait for room in the queue of requests. -/
def handing (s : Sys) : Nat :=
  s.threads.countP fun th => match th.pc with
    | .push _ => true
    | _ => false

/-- Calls of `Send` that have returned `ErrMsgSendTimeout`. -/
def gaveUp (s : Sys) : Nat :=
  s.threads.countP fun th => match th.call, th.pc with
    | .send .., .ret .sendTimeout => true
    | _, _ => false

/-- What `processLoop` has taken from `readCh` (`none`: a heart-beat). -/
def consumed (s : Sys) : List (Option Frame) :=
  s.trace.filterMap fun o => match o with
    | .took x => some x
    | _ => none

/-- How often `readLoop` has read a frame or a heart-beat. -/
def reads (es : List CEv) : Nat :=
  es.countP fun e => match e with
    | .read _ => true
    | _ => false

end Stomp.Client.Spec
