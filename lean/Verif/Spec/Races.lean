import Verif.Model.Server.Accesses
/-!
# When one step happens before another

The Go Memory Model: the steps of one goroutine happen in their order; a send on a channel happens before the corresponding receive; happening before is
transitive. Channels are first in, first out, so the `n`-th send on a channel corresponds to the `n`-th receive from it. Of the channels only the request
channel and the `subChannel`s are used here, and not the start of goroutines, so fewer steps happen before others than in Go.
-/
namespace Stomp.Server
open Stomp

/-- A step of a run. -/
structure Moment where
  before : Sys
  ev : Sys.Ev
  after : Sys

namespace Spec

/-- The steps of a run of the server from a state. -/
def Follows (cfg : Config) : Sys → List Moment → Prop
  | _, [] => True
  | s, m :: l => m.before = s ∧ s.step cfg m.ev = some m.after ∧ Follows cfg m.after l

/-- Whose step it is. -/
def doer (m : Moment) : Goroutine := m.ev.goroutine

/-- What is accessed in it. -/
def touched (m : Moment) : List (Cell × Bool) := accesses m.before m.ev m.after

/-- A subscription in a state of the server. -/
def subscription (s : Sys) (r : SubRef) : Option Sub := s.conns[r.conn]?.bind (fun k => k.heap[r.idx]?)

/-- A connection has made the message. -/
def hasMade (s : Sys) (t : Tag) : Prop := ∃ k, s.conns[t.src]? = some k ∧ t.seq < k.sent

/-- A request is sent. -/
def sendsReq (m : Moment) : Bool :=
  match m.ev with
  | .flush _ => true
  | _ => false

/-- A request is received. -/
def takesReq (m : Moment) : Bool :=
  match m.ev with
  | .proc => !m.before.reqCh.isEmpty
  | _ => false

/-- A subscription is sent on the `subChannel` of a connection. -/
def sendsSub (c : Nat) (m : Moment) : Bool :=
  match m.ev, m.before.todo with
  | .push, .queue r :: _ => decide (r.conn = c)
  | _, _ => false

/-- A subscription is received from the `subChannel` of a connection. -/
def takesSub (c : Nat) (m : Moment) : Bool :=
  match m.ev with
  | .conn c' (.sub _) => decide (c' = c) && !(m.before.conn c).subCh.isEmpty
  | .conn c' .clean =>
    decide (c' = c ∧ ((m.before.conn c).stage = .drain1 ∨ (m.before.conn c).stage = .drain2)) && !(m.before.conn c).subCh.isEmpty
  | _ => false

/-- Step `i` is the `n`-th step that sends, step `j` the `n`-th that receives, for some `n`. -/
def Corresponds (sends takes : Moment → Bool) (l : List Moment) (i j : Nat) : Prop :=
  (∃ m, l[i]? = some m ∧ sends m = true) ∧ (∃ m, l[j]? = some m ∧ takes m = true) ∧ (l.take i).countP sends = (l.take j).countP takes

/-- Step `i` happens before step `j`. -/
inductive HappensBefore (l : List Moment) : Nat → Nat → Prop
  | program (i j : Nat) (a b : Moment) (ha : l[i]? = some a) (hb : l[j]? = some b) (h : doer a = doer b) (hij : i < j) : HappensBefore l i j
  | request (i j : Nat) (h : Corresponds sendsReq takesReq l i j) : HappensBefore l i j
  | subscription (c i j : Nat) (h : Corresponds (sendsSub c) (takesSub c) l i j) : HappensBefore l i j
  | trans (i j k : Nat) (h : HappensBefore l i j) (h' : HappensBefore l j k) : HappensBefore l i k

end Spec
end Stomp.Server
