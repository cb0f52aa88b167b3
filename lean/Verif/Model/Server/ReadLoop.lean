import Verif.Model.Server.Conn
/-!
# The read deadline of a server connection: `readLoop` (`server/client/conn.go:117-183`)
-/
namespace Stomp.Server
open Stomp

/-- The local variables `expectingConnect` and `readTimeout` (milliseconds) of `readLoop`
(`server/client/conn.go:119-120`). -/
structure ReadLoop where
  expectingConnect : Bool := true
  readTimeout : Nat := 0
  deriving DecidableEq, Repr

/-- What a frame does to them (`server/client/conn.go:154-176`). -/
def ReadLoop.frame (cfg : Config) (s : ReadLoop) (f : Frame) : ReadLoop :=
  if s.expectingConnect then
    match getHeartBeat f with
    | .ok (cx, _) => { expectingConnect := false, readTimeout := Conn.raise cx (asMilliseconds cfg.heartBeat maxHeartBeat) }
    | .error _ => s
  else s

/-- The read deadline relative to now, in nanoseconds (`server/client/conn.go:122-127`); `none` is no deadline. -/
def ReadLoop.deadline (s : ReadLoop) : Option Int :=
  if s.readTimeout = 0 then none else some ((s.readTimeout : Int) * millisecond * 2)

end Stomp.Server
