import Verif.Model.Server.Accesses
/-!
# A run that is watched for races

The way Go's race detector watches a program: what a goroutine knows of, and what travels with the elements of the channels.
-/
namespace Stomp.Server
open Stomp

/-- An access that has been made: the number of the step, the goroutine, the cell, and whether it was a write. -/
structure Access where
  at_ : Nat
  by_ : Goroutine
  cell : Cell
  write : Bool
  deriving DecidableEq, Repr

/-- A run that is watched: the number of steps, what steps each goroutine knows of (those that happened before its next
step), what the sender of each element of a channel knew when it was sent, the accesses so far, and whether there was a race. -/
structure Watch where
  now : Nat := 0
  know : Goroutine → List Nat := fun _ => []
  reqK : List (List Nat) := []
  subK : Nat → List (List Nat) := fun _ => []
  hist : List Access := []
  race : Bool := false

namespace Watch

/-- What a goroutine learns in a step, by receiving from a channel. The processor receives a request (`server/processor.go:43`), a
connection receives from its `subChannel` (`server/client/conn.go:264`, `391`). -/
def gained (w : Watch) (s : Sys) : Sys.Ev → List Nat
  | .proc => w.reqK.head?.getD []
  | .conn c (.sub _) => (w.subK c).head?.getD []
  | .conn c .clean => if (s.conn c).stage = .drain1 ∨ (s.conn c).stage = .drain2 then (w.subK c).head?.getD [] else []
  | _ => []

/-- The knowledge that travels in the request channel, after a step. What the sender does after the send does not travel. -/
def reqK' (w : Watch) : Sys.Ev → List (List Nat)
  | .flush c => w.reqK ++ [w.know (.loop c)]
  | .proc => w.reqK.tail
  | _ => w.reqK

/-- The knowledge that travels in a `subChannel`, after a step. -/
def subK' (w : Watch) (s : Sys) (e : Sys.Ev) (c : Nat) : List (List Nat) :=
  match e with
  | .push =>
    match s.todo with
    | .queue r :: _ => if r.conn = c then w.subK c ++ [w.know .processor] else w.subK c
    | _ => w.subK c
  | .conn c' (.sub _) => if c' = c then (w.subK c).tail else w.subK c
  | .conn c' .clean =>
    if c' = c ∧ ((s.conn c).stage = .drain1 ∨ (s.conn c).stage = .drain2) then (w.subK c).tail else w.subK c
  | _ => w.subK c

/-- Two accesses of a cell conflict if one of them is a write. It is a race if they are by different goroutines and the later does not
know of the earlier. -/
def races (known : List Nat) (g : Goroutine) (hist : List Access) (l : List (Cell × Bool)) : Bool :=
  l.any (fun a => hist.any (fun b => decide (b.cell = a.1) && (b.write || a.2) && decide (b.by_ ≠ g) && !known.contains b.at_))

/-- One step of the server, watched. -/
def step (w : Watch) (s : Sys) (e : Sys.Ev) (s' : Sys) : Watch :=
  let g := e.goroutine
  let known := w.know g ++ w.gained s e
  let l := accesses s e s'
  { now := w.now + 1
    know := fun h => if h = g then known ++ [w.now] else w.know h
    reqK := w.reqK' e
    subK := w.subK' s e
    hist := w.hist ++ l.map (fun a => ⟨w.now, g, a.1, a.2⟩)
    race := w.race || races known g w.hist l }

/-- A run of the server, watched. -/
def run (cfg : Config) : Sys → Watch → List Sys.Ev → Option (Sys × Watch)
  | s, w, [] => some (s, w)
  | s, w, e :: es =>
    match s.step cfg e with
    | none => none
    | some s' => run cfg s' (w.step s e s') es

end Watch
end Stomp.Server
