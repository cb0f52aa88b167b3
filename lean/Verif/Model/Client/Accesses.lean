import Verif.Model.Client.System
/-!
# Which goroutine of the client touches what

The goroutines of a connection share the field `closed`, which is protected by `closeMutex` (`conn.go:51-52`), and pass frames to each other through `writeCh`, `readCh` and the channels of the requests. Here
every step of the client system is given the goroutines that take part in it, its calls of `closeMutex.Lock` and `Unlock`, and its accesses to `closed`. The accesses to frames and the order of the accesses
are in `Verif/Spec/ClientRaces.lean`.

Simplifications. Every call is made by a goroutine of its own. `processLoop` after an ERROR locks the mutex twice (`conn.go:383-384`, and again in the deferred `MustDisconnect`, `conn.go:512`, which finds
`closed` set); this is one step, and one `Lock`. Within a step the accesses to `closed` are between `Lock` and `Unlock`, as in the code. The other fields of `Conn` are written only by `Connect`, before
the goroutines are started (`conn.go:105-241`); those of `Subscription` by `Subscribe` (`conn.go:741-751`) except `state`, which is accessed by `sync/atomic` only.
-/
namespace Stomp.Client
open Stomp

/-- The goroutines of a connection: that of a call, the one started by `waitWithTimeout` for a call (`subscription.go:124`), `readLoop` and `processLoop` (`conn.go:240-241`), `readLoop` of a subscription
(`conn.go:752`), others of the user. -/
inductive Goroutine
  | caller (t : Nat)
  | helper (t : Nat)
  | read
  | loop
  | sub (i : Nat)
  | user
  deriving DecidableEq, Repr

/-- The goroutine that makes a step. -/
def Ev.goroutine : Ev → Goroutine
  | .thread t => .caller t
  | .timeout t => .caller t
  | .helper t => .helper t
  | .net _ => .read
  | .netErr => .read
  | .loopRead _ => .loop
  | .loopWrite _ _ => .loop
  | .loopBeat _ _ => .loop
  | .loopTimeout _ => .loop
  | .deliver _ => .loop
  | .finish => .loop
  | .sub i => .sub i
  | .call _ => .user
  | .take _ => .user
  | .tick => .user

/-- Who receives what `processLoop` is about to send on a channel (`conn.go:365`, `379`, `393`, `467`). -/
def Sys.receiver (s : Sys) : Option Goroutine :=
  match s.loop with
  | .receipt _ _ n | .message _ n | .errs _ (n :: _) | .fail _ (n :: _) =>
    match s.chans[n]? with
    | some ⟨.caller t, _⟩ => some (.caller t)
    | some ⟨.sub i, _⟩ => some (.sub i)
    | none => none
  | _ => none

/-- The goroutine takes part in the step. -/
def takesPart (s : Sys) (e : Ev) (g : Goroutine) : Prop := e.goroutine = g ∨ (∃ ok, e = .deliver ok) ∧ s.receiver = some g

/-- The step has a call of `closeMutex.Lock`, by this goroutine: `conn.go:478`, `512`, `535`, `638`, `698`, at the beginning of all calls but `Unsubscribe`, which comes to it later; `processLoop` at its end. -/
def lockIn (s : Sys) : Ev → Option Goroutine
  | .thread t =>
    match s.threads[t]? with
    | some ⟨.unsubscribe .., .start, _⟩ => none
    | some ⟨_, .start, _⟩ => some (.caller t)
    | some ⟨_, .lock _, _⟩ => some (.caller t)
    | _ => none
  | .finish => some .loop
  | _ => none

/-- The goroutine is between `Lock` and `Unlock`: before its `c.writeCh <- request` is done, or, in `Send` and `Disconnect` with the deferred `Unlock` (`conn.go:479`, `536`), waiting for the receipt. -/
def Sys.inside (s : Sys) : Goroutine → Bool
  | .caller t =>
    match s.threads[t]? with
    | some ⟨_, .push _, _⟩ => true
    | some ⟨.send .., .wait _, _⟩ => true
    | some ⟨.disconnect, .wait _, _⟩ => true
    | _ => false
  | _ => false

/-- The step has a call of `closeMutex.Unlock`, by this goroutine, which comes to be outside: `conn.go:479`, `513`, `536`, `640`, `660`, `687`, `699`, `384`. -/
def unlockIn (s : Sys) (e : Ev) (s' : Sys) (g : Goroutine) : Prop := (lockIn s e = some g ∨ s.inside g = true) ∧ s'.inside g = false

/-- The accesses to `closed` in a step; the truth value says whether it is a write. `conn.go:480`, `514`, `537`, `639`, `700` (the test), `521` (`MustDisconnect`, also as deferred), `501` (timeout of
`Disconnect`), `496` (`Disconnect` has got its receipt), `385` (ERROR). -/
def closedIn (s : Sys) : Ev → List (Goroutine × Bool)
  | .thread t =>
    match s.threads[t]? with
    | some ⟨.unsubscribe .., .start, _⟩ => []
    | some ⟨.mustDisconnect, .start, _⟩ => [(.caller t, !s.closed)]
    | some ⟨_, .start, _⟩ => [(.caller t, false)]
    | some ⟨_, .lock _, _⟩ => [(.caller t, false)]
    | _ => []
  | .timeout t =>
    match s.threads[t]? with
    | some ⟨.disconnect, .wait _, _⟩ => [(.caller t, true)]
    | _ => []
  | .deliver _ =>
    match s.receiver with
    | some (.caller t) =>
      match s.threads[t]? with
      | some ⟨.disconnect, .wait _, _⟩ => [(.caller t, true)]
      | _ => []
    | _ => []
  | .finish =>
    match s.loop with
    | .errs _ _ => [(.loop, true)]
    | _ => [(.loop, !s.closed)]
  | _ => []

end Stomp.Client
