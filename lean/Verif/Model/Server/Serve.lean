import Verif.Model.Server.Listen
import Verif.Model.Server.AnyStorage
/-!
# Starting the server: `ListenAndServe` and `Serve`

`server/server.go:51-89`, `server/processor.go:23-43`, `102-130`.

The goroutine of `Listen` accepts connections, the goroutine that called `Serve` processes requests.
-/
namespace Stomp.Server
open Stomp

/-- `DefaultAddr` (`server/server.go:27`). -/
def defaultAddr : Bytes := b!":61613"

/-- A call of `Serve`: the listener it was given, the server, the goroutine of `Listen` with its variable `timeout` (`none` when it has returned, `server/processor.go:121`),
and whether the loop of `Serve` is still running. Nothing in that loop leaves it (`server/processor.go:41-93`), so no step sets `serving` to false. `Log` is not modelled. -/
structure Service (lis σ : Type) where
  listener : lis
  over : SysOver σ
  loop : Option Int := some 0
  serving : Bool := true

namespace Service
variable {lis σ ε : Type}

/-- `Server.Serve` (`server/server.go:82-89`) with `newRequestProcessor` (`server/processor.go:23-38`) up to the loops. -/
def serve (q : QueueStorage σ) (l : lis) : Service lis σ := { listener := l, over := SysOver.init q }

/-- `Server.ListenAndServe` (`server/server.go:66-77`) and the function of this name (`51-54`); `listen` is `net.Listen` for "tcp". -/
def listenAndServe (q : QueueStorage σ) (addr : Bytes) (listen : Bytes → Except ε lis) : Except ε (Service lis σ) :=
  let addr := if addr.length = 0 then defaultAddr else addr
  match listen addr with
  | .error e => .error e
  | .ok l => .ok (serve q l)

/-- `Accept` returns in the loop of `Listen`, or something happens in the server. -/
inductive Ev
  | accept (r : AcceptRes)
  | sys (e : Sys.Ev)
  deriving DecidableEq, Repr

/-- One step. Sleeping after a failure is part of the step (`server/processor.go:119`). -/
def step (q : QueueStorage σ) (cfg : Config) (s : Service lis σ) : Ev → Option (Service lis σ)
  | .accept r =>
    if s.over.sys.crashed then none
    else
      match s.loop with
      | none => none
      | some t =>
        match listenStep t r with
        | (t', .serve) => (s.over.step q cfg .accept).map fun x => { s with over := x, loop := some t' }
        | (t', .sleep _) => some { s with loop := some t' }
        | (_, .stop) => some { s with loop := none }
  | .sys .accept => none
  | .sys e => (s.over.step q cfg e).map fun x => { s with over := x }

/-- A run under any schedule. -/
def run (q : QueueStorage σ) (cfg : Config) : Service lis σ → List Ev → Option (Service lis σ)
  | s, [] => some s
  | s, e :: es =>
    match s.step q cfg e with
    | none => none
    | some s => run q cfg s es

end Service
end Stomp.Server
