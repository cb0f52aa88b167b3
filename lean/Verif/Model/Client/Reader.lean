import Verif.Model.Client.System
/-!
# The client with the frame in the hand of `readLoop` (`conn.go:288-303`)

In `Model/Client/System.lean` the read of a frame and its push into `readCh` are one step, possible when there is room. Here they are two: `readLoop` has
read a frame and has it in its hand until there is room in `readCh`.
-/
namespace Stomp.Client
open Stomp

/-- The client, and what `readLoop` has in its hand: nothing (it is in `reader.Read`), or a frame (`some none`: a heart-beat) it is pushing (`conn.go:290-301`). -/
structure HSys where
  sys : Sys
  hand : Option (Option Frame) := none
  deriving DecidableEq, Repr

namespace HSys

/-- `readLoop` is started with `processLoop` (`conn.go:240-241`). -/
def init (lastId : Nat) : HSys := { sys := .init lastId }

/-- Steps of `readLoop`: `reader.Read` returns a frame, the push completes, `reader.Read` fails; and the steps of all others. -/
inductive Ev
  | read (f : Option Frame)
  | push
  | fail
  | other (e : Client.Ev)
  deriving DecidableEq, Repr

/-- One step; `none` means that the event cannot happen now. -/
def step (cfg : Cfg) (x : HSys) : Ev → Option HSys
  | .read f => if x.sys.crashed.isSome || x.sys.readDone || x.hand.isSome then none else some { x with hand := some f }   -- conn.go:290
  | .push =>                                                                                                              -- conn.go:301
    match x.hand with
    | some f => (x.sys.step cfg (.net f)).map fun s => { sys := s, hand := none }
    | none => none
  | .fail => if x.hand.isSome then none else (x.sys.step cfg .netErr).map fun s => { x with sys := s }                    -- conn.go:291-294
  | .other e =>
    match e with
    | .net _ => none
    | .netErr => none
    | e => (x.sys.step cfg e).map fun s => { x with sys := s }

def run (cfg : Cfg) (x : HSys) : List Ev → Option HSys
  | [] => some x
  | e :: es => (x.step cfg e).bind fun x => x.run cfg es

end HSys
end Stomp.Client
