import Verif.Model.Client.Accesses
/-!
# When an access in the client happens before another

The Go Memory Model: the steps of a goroutine happen in their order; an `Unlock` of a mutex happens before each later `Lock`; a send on a channel happens before the corresponding receive; happening before
is transitive. Channels are first in, first out, so the `n`-th send on a channel corresponds to the `n`-th receive. A send on a channel without a buffer and its receive are one step of two goroutines; what the
receiver does in the step comes after the send, but the sender need not wait for it. So what happens before what is said of pairs of a step and a goroutine that takes part in it. Other edges of the Memory
Model (the start of goroutines, `sync/atomic`, closing of channels, `Subscription.C`) are not used, so fewer pairs are ordered than in Go.
-/
namespace Stomp.Client
open Stomp

/-- A step of a run. -/
structure Moment where
  before : Sys
  ev : Ev
  after : Sys

/-- What goroutines share: the field `closed`, the frame a call sends, the frames read from the network, the ERROR frame that `processLoop` makes itself. -/
inductive Cell
  | closed
  | request (t : Nat)
  | incoming (n : Nat)
  | failure
  deriving DecidableEq, Repr

namespace Spec

/-- The steps of a run of the client from a state. -/
def Follows (cfg : Cfg) : Sys → List Moment → Prop
  | _, [] => True
  | s, m :: l => m.before = s ∧ s.step cfg m.ev = some m.after ∧ Follows cfg m.after l

/-- The step puts a request on `writeCh`. -/
def pushes (m : Moment) : Bool :=
  match m.ev with
  | .thread t =>
    match m.before.threads[t]? with
    | some ⟨_, .push _, _⟩ => !m.before.writeClosed
    | _ => false
  | _ => false

/-- `processLoop` takes a request from `writeCh`. -/
def pops (m : Moment) : Bool :=
  match m.ev with
  | .loopWrite _ _ => !m.before.writeCh.isEmpty
  | _ => false

/-- `readLoop` puts something on `readCh`. -/
def brings (m : Moment) : Bool :=
  match m.ev with
  | .net _ => true
  | _ => false

/-- `processLoop` takes something from `readCh`. -/
def takes (m : Moment) : Bool :=
  match m.ev with
  | .loopRead _ => !m.before.readCh.isEmpty
  | _ => false

/-- Step `i` is the `n`-th step that sends, step `j` the `n`-th that receives, for some `n`. -/
def Corresponds (sends receives : Moment → Bool) (l : List Moment) (i j : Nat) : Prop :=
  (∃ m, l[i]? = some m ∧ sends m = true) ∧ (∃ m, l[j]? = some m ∧ receives m = true) ∧ (l.take i).countP sends = (l.take j).countP receives

/-- `processLoop` is in `sendError`. -/
def failing (s : Sys) : Prop := ∃ f todo, s.loop = .fail f todo

/-- `processLoop` has a frame from the network in hand, to give it to somebody. -/
def InHand (s : Sys) (f : Frame) : Prop := (∃ id n, s.loop = .receipt f id n) ∨ (∃ n, s.loop = .message f n) ∨ ∃ todo, s.loop = .errs f todo

/-- `Touches l i g c w`: in step `i` of the run goroutine `g` accesses `c`, and writes it if `w`. -/
inductive Touches (l : List Moment) : Nat → Goroutine → Cell → Bool → Prop
  /-- `closed`. -/
  | closed (i : Nat) (m : Moment) (hm : l[i]? = some m) (g : Goroutine) (w : Bool) (h : (g, w) ∈ closedIn m.before m.ev) : Touches l i g .closed w
  /-- The caller makes its frame, looks for a receipt header, hands it over. -/
  | prepare (i : Nat) (m : Moment) (hm : l[i]? = some m) (t : Nat) (th : Thread) (he : m.ev = .thread t) (ht : m.before.threads[t]? = some th)
      (hp : th.pc = .start ∨ (∃ f, th.pc = .lock f) ∨ ∃ r, th.pc = .push r) : Touches l i (.caller t) (.request t) true
  /-- `processLoop` looks at the frame it has taken, adds a receipt header to UNSUBSCRIBE, writes it to the network. -/
  | process (p j : Nat) (h : Corresponds pushes pops l p j) (m : Moment) (hm : l[p]? = some m) (t : Nat) (he : m.ev = .thread t) : Touches l j .loop (.request t) true
  /-- `readLoop` makes a frame of what it reads. -/
  | arrive (i : Nat) (m : Moment) (hm : l[i]? = some m) (hr : brings m = true) : Touches l i .read (.incoming ((l.take i).countP brings)) true
  /-- `processLoop` looks at it. -/
  | look (i : Nat) (m : Moment) (hm : l[i]? = some m) (hr : takes m = true) : Touches l i .loop (.incoming ((l.take i).countP takes)) false
  /-- A caller or a subscription gets from `processLoop` the frame it took last. -/
  | answer (i : Nat) (m : Moment) (hm : l[i]? = some m) (ok : Bool) (he : m.ev = .deliver ok) (g : Goroutine) (hg : m.before.receiver = some g) (hf : ¬failing m.before)
      (n : Nat) (hn : n + 1 = (l.take i).countP takes) : Touches l i g (.incoming n) false
  /-- `sendError` makes an ERROR frame. -/
  | fail (i : Nat) (m : Moment) (hm : l[i]? = some m) (h : ¬failing m.before) (h' : failing m.after) : Touches l i .loop .failure true
  /-- A caller or a subscription gets it. -/
  | told (i : Nat) (m : Moment) (hm : l[i]? = some m) (ok : Bool) (he : m.ev = .deliver ok) (g : Goroutine) (hg : m.before.receiver = some g) (hf : failing m.before) :
      Touches l i g .failure false

/-- What `g` does in step `i` happens before what `g'` does in step `j`. -/
inductive HappensBefore (l : List Moment) : Nat → Goroutine → Nat → Goroutine → Prop
  | program (i j : Nat) (g : Goroutine) (a b : Moment) (ha : l[i]? = some a) (hb : l[j]? = some b) (h : takesPart a.before a.ev g) (h' : takesPart b.before b.ev g) (hij : i < j) :
      HappensBefore l i g j g
  | mutex (i j : Nat) (g g' : Goroutine) (a b : Moment) (ha : l[i]? = some a) (hb : l[j]? = some b) (h : unlockIn a.before a.ev a.after g) (h' : lockIn b.before b.ev = some g') (hij : i < j) :
      HappensBefore l i g j g'
  | writeCh (i j : Nat) (h : Corresponds pushes pops l i j) (a : Moment) (ha : l[i]? = some a) : HappensBefore l i a.ev.goroutine j .loop
  | readCh (i j : Nat) (h : Corresponds brings takes l i j) : HappensBefore l i .read j .loop
  | send (i : Nat) (m : Moment) (hm : l[i]? = some m) (ok : Bool) (he : m.ev = .deliver ok) (g : Goroutine) (hg : m.before.receiver = some g) : HappensBefore l i .loop i g
  | trans (i j k : Nat) (g g' g'' : Goroutine) (h : HappensBefore l i g j g') (h' : HappensBefore l j g' k g'') : HappensBefore l i g k g''

end Spec
end Stomp.Client
