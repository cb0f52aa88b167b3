import Verif.Model.Server.ReadLoop
/-!
# A server connection with a clock: the timer of `processLoop` and the deadlines of `readLoop`

`Conn` with the time, the heart-beat timer of `processLoop` (`server/client/conn.go:193-199`) and the read deadline of `readLoop`
(`server/client/conn.go:117-183`). Time is a number of nanoseconds. An event is either the passing of time or a step, which takes no time (time that a step
takes, in particular a blocking write, is time that passes before the step).

Unlike `Conn.Ev.recv`, which is the read of a frame and its push into `readChannel` in one, the two are separate here: `item` and `push`.

Simplifications: a read fails because of the deadline at any time from the deadline on; what has been read of an item when the deadline passes is lost.
-/
namespace Stomp.Server
open Stomp

/-- What is logged (not in the code): a successful write, a message taken from `subChannel` whose subscription has ended, the arrival of some bytes that do not
complete an item, a complete item (a heart-beat is `none`), and the push of a frame into `readChannel`. -/
inductive TObs
  | wrote (w : Wr)
  | gone
  | bytes
  | item (f : Option Frame)
  | pushed
  deriving DecidableEq, Repr

/-- The connection, the clock, the timer (`some d`: not nil, fires at time `d`), the variables of `readLoop`, the read deadline in force, and the frame `readLoop` has read but not yet
pushed. Not in the code: `late`, how much of the time has passed while `processLoop` had something to do, and `log`, the observations with the values of `now` and `late`. -/
structure TConn where
  conn : Conn
  now : Nat := 0
  timer : Option Nat := none
  rl : ReadLoop := {}
  deadline : Option Nat := none
  pending : Option Frame := none
  late : Nat := 0
  log : List (Nat × Nat × TObs) := []
  deriving DecidableEq, Repr

namespace TConn

/-- "if c.writeTimeout > 0 && timer == nil", at the top of the loop (`server/client/conn.go:196-199`). `writeTimeout` is in milliseconds (`server/client/conn.go:520`). -/
def arm (x : TConn) : TConn :=
  if x.conn.atSelect ∧ 0 < x.conn.writeTimeout ∧ x.timer = none then { x with timer := some (x.now + x.conn.writeTimeout * 1000000) } else x

/-- `NewConn` (`server/client/conn.go:50-66`). -/
def init (me : Nat) : TConn := { conn := .init me }

inductive Ev
  | delay (d : Nat)
  | bytes
  | item (f : Option Frame)
  | push
  | expire
  | fail
  | step (e : Conn.Ev)
  deriving DecidableEq, Repr

/-- The timer has fired, so its channel is ready. -/
def fired (now : Nat) : Option Nat → Bool
  | some d => d ≤ now
  | none => false

/-- `processLoop` is at its `select`, and no case of it becomes ready before `now + d` (`server/client/conn.go:201-323`). -/
def idle (x : TConn) (d : Nat) : Bool :=
  x.conn.atSelect ∧ x.conn.inq = [] ∧ x.conn.readDone = false ∧ x.conn.writeCh = [] ∧ x.conn.subCh = [] ∧ ∀ w ∈ x.timer, x.now + d ≤ w

/-- The timer after a step of the connection: the heart-beat case needs a timer that has fired (`server/client/conn.go:313`); this case, that of `writeChannel` and that of `subChannel` set the
timer to nil (`server/client/conn.go:315-318`, `213-216`, `275-278`). The steps of `readLoop` are separate events. -/
def timerAfter (x : TConn) : Conn.Ev → Option (Option Nat)
  | .timer _ => if fired x.now x.timer then some none else none
  | .wr _ => some none
  | .sub _ => some none
  | .recv _ => none
  | .readErr => none
  | _ => some x.timer

/-- The observation of taking a message whose subscription has ended (`server/client/conn.go:283`, `307-310`). -/
def goneIn (c : Conn) : Conn.Ev → List TObs
  | .sub _ => match c.subCh with
    | i :: _ => if c.subs.get? (deref c.heap i).id = none then [.gone] else []
    | [] => []
  | _ => []

/-- The top of the loop of `readLoop` (`server/client/conn.go:122-127`). -/
def setDeadline (x : TConn) : TConn := { x with deadline := x.rl.deadline.map fun d => x.now + d.toNat }

/-- `readLoop` is in `reader.Read` (`server/client/conn.go:128`). -/
def reading (x : TConn) : Bool := !x.conn.readDone ∧ x.pending = none

def note (x : TConn) (l : List TObs) : TConn := { x with log := x.log ++ l.map fun o => (x.now, x.late, o) }

/-- One step; `none` means that the event cannot happen now. -/
def step (cfg : Config) (x : TConn) : Ev → Option TConn
  | .delay d => some { x with now := x.now + d, late := if x.idle d then x.late else x.late + d }
  | .bytes => if x.reading then some (x.note [.bytes]) else none
  | .item f =>                                                    -- conn.go:128, 145-177
    if x.reading then
      match f with
      | none => some (x.note [.item none]).setDeadline
      | some f => some { x.note [.item (some f)] with pending := some f, rl := x.rl.frame cfg f }
    else none
  | .push =>                                                      -- conn.go:181
    match x.pending with
    | none => none
    | some f => (x.conn.step cfg (.recv f)).map fun c => ({ x.note [.pushed] with conn := c, pending := none } : TConn).setDeadline
  | .expire => if x.reading && fired x.now x.deadline then (x.conn.step cfg .readErr).map fun c => { x with conn := c } else none
  | .fail => if x.reading then (x.conn.step cfg .readErr).map fun c => { x with conn := c } else none
  | .step e =>
    match x.timerAfter e, x.conn.step cfg e with
    | some t, some c => some (arm { x.note (goneIn x.conn e ++ (c.out.drop x.conn.out.length).map .wrote) with conn := c, timer := t })
    | _, _ => none

def run (cfg : Config) : TConn → List Ev → Option TConn
  | x, [] => some x
  | x, e :: es =>
    match x.step cfg e with
    | none => none
    | some x => run cfg x es

end TConn
end Stomp.Server
