import Verif.Model.Client.System
/-!
# The timers of `processLoop` (`conn.go:306-349`, `conn.go:400-406`)

The client system with a clock. Time is a number of nanoseconds; an event is either the passing of time or a step of
the system, which takes no time (time that a step takes, in particular a blocking `writer.Write`, is time that passes
before the step).

The duration of the read timer, `float64(c.readTimeout) * c.hbGracePeriodMultiplier` (`conn.go:318`), is a parameter
here; `Client/Grace` computes it. The timers of callers may fire at any time, as in `Sys.step`.
-/
namespace Stomp.Client
open Stomp

/-- The durations: `c.readTimeout` is positive, and the read timer runs for `read` (`conn.go:317-318`);
`c.writeTimeout` is positive, and is `write` (`conn.go:321-322`). -/
structure TCfg where
  sys : Cfg
  read : Nat
  write : Nat

/-- The system, the clock, and the timers: `some d` is a `readTimer` (`writeTimer`) that is not nil and fires at time `d`.
Not in the code: `late`, how much of the time has passed while `processLoop` had something to do, and `log`, the log of
the system with the values of `now` and `late`. -/
structure TSys where
  sys : Sys
  now : Nat
  readTimer : Option Nat
  writeTimer : Option Nat
  late : Nat
  log : List (Nat × Nat × Obs)

/-- The timers that are nil are made when `processLoop` is at the top of its loop (`conn.go:317-324`). -/
def TSys.arm (c : TCfg) (x : TSys) : TSys :=
  if x.sys.loop = .select then
    { x with
      readTimer := if c.sys.readTimeout ∧ x.readTimer = none then some (x.now + c.read) else x.readTimer
      writeTimer := if c.sys.writeTimeout ∧ x.writeTimer = none then some (x.now + c.write) else x.writeTimer }
  else x

/-- `go processLoop` (`conn.go:241`). -/
def TSys.init (c : TCfg) (lastId : Nat) : TSys :=
  TSys.arm c { sys := Sys.init lastId, now := 0, readTimer := none, writeTimer := none, late := 0, log := [] }

inductive TEv
  | delay (d : Nat)
  | step (e : Ev)
  deriving DecidableEq, Repr

/-- The timer has fired, so its channel is ready. -/
def fired (now : Nat) : Option Nat → Bool
  | some d => d ≤ now
  | none => false

/-- `processLoop` is at its `select`, and no case of it becomes ready before `now + d`. -/
def TSys.idle (x : TSys) (d : Nat) : Bool :=
  x.sys.loop = .select ∧ x.sys.readCh = [] ∧ x.sys.readDone = false ∧ x.sys.writeCh = [] ∧ x.sys.writeClosed = false ∧
  (∀ r ∈ x.readTimer, x.now + d ≤ r) ∧ ∀ w ∈ x.writeTimer, x.now + d ≤ w

/-- The timers after a step: the case of the read timer and that of the write timer need a timer that has fired
(`conn.go:327`, `conn.go:333`); the second and the case of `writeCh` set the write timer to nil (`conn.go:340-341`,
`conn.go:402-406`), the case of `readCh` the read timer (`conn.go:345-349`). -/
def TSys.timers (x : TSys) : Ev → Option (Option Nat × Option Nat)
  | .loopTimeout _ => if fired x.now x.readTimer then some (x.readTimer, x.writeTimer) else none
  | .loopBeat _ _ => if fired x.now x.writeTimer then some (x.readTimer, none) else none
  | .loopRead _ => some (none, x.writeTimer)
  | .loopWrite _ _ => some (x.readTimer, none)
  | _ => some (x.readTimer, x.writeTimer)

def TSys.step (c : TCfg) (x : TSys) : TEv → Option TSys
  | .delay d => some { x with now := x.now + d, late := if x.idle d then x.late else x.late + d }
  | .step e =>
    match x.timers e, x.sys.step c.sys e with
    | some (r, w), some s =>
      some (TSys.arm c { x with
        sys := s, readTimer := r, writeTimer := w,
        log := x.log ++ (s.trace.drop x.sys.trace.length).map fun o => (x.now, x.late, o) })
    | _, _ => none

def TSys.run (c : TCfg) (x : TSys) : List TEv → Option TSys
  | [] => some x
  | e :: es => (x.step c e).bind fun x => x.run c es

end Stomp.Client
