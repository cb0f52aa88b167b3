import Verif.Model.Client.System
/-!
# The statistics of a connection (`conn.go:269-302`, `ConnOpt.WithStats`, `conn_options.go:345-349`)

The client system with the two counters. `readLoop` counts a frame when it has read it, and then waits until there is room in `readCh` (`conn.go:292-300`): here these are two steps, `read` and `put`,
that replace the step `net` of the system.

Not modelled: that `Stats` reads the four values one after another (here: the values at one time), and that the counters are `int64`.
-/
namespace Stomp.Client
open Stomp

/-- The system; `held` is what `readLoop` has read and not yet put on `readCh`. -/
structure CSys where
  sys : Sys
  held : Option (Option Frame)
  writesSent : Nat
  readsReceived : Nat
  deriving DecidableEq, Repr

/-- `Connect` leaves the counters at zero; CONNECT and CONNECTED are not counted (`conn.go:166-170`, `conn.go:240`). -/
def CSys.init (lastId : Nat) : CSys := ⟨Sys.init lastId, none, 0, 0⟩

/-- Caller `t` gets past `if c.statsEnabled` in this step: it has the lock, the connection is not closed, and no option has failed (`conn.go:478-486` in `Disconnect`, `conn.go:535-548` in `Send`,
`conn.go:638-647` in `sendFrame`, `conn.go:698-756` in `Subscribe`). -/
def passes (s : Sys) (t : Nat) : Bool :=
  match s.threads[t]? with
  | none => false
  | some th =>
    match th.pc, th.call with
    | .start, .send d c b o => s.mutex.isNone && !s.closed && (createSendFrame s.lastId d c b o).isSome
    | .start, .subscribe d a o => s.mutex.isNone && !s.closed && (createSubscribeFrame s.lastId d a o).isSome
    | .start, .disconnect => s.mutex.isNone && !s.closed
    | .start, .frame _ => s.mutex.isNone && !s.closed
    | .lock _, _ => s.mutex.isNone && !s.closed
    | _, _ => false

/-- Whether an event is a caller's step over the increment of `writesSent`. -/
def CSys.counts (x : CSys) : Ev → Bool
  | .thread t => passes x.sys t
  | _ => false

inductive CEv
  | sys (e : Ev)
  | read (f : Option Frame)
  | put
  deriving DecidableEq, Repr

/-- One step; `stats` is `c.statsEnabled`. -/
def CSys.step (cfg : Cfg) (stats : Bool) (x : CSys) : CEv → Option CSys
  | .sys (.net _) => none
  | .sys .netErr => if x.held.isSome then none else (x.sys.step cfg .netErr).map fun s => { x with sys := s }
  | .sys e => (x.sys.step cfg e).map fun s => { x with sys := s, writesSent := x.writesSent + if stats && x.counts e then 1 else 0 }
  | .read f =>
    if x.sys.crashed.isSome || x.sys.readDone || x.held.isSome then none
    else some { x with held := some f, readsReceived := x.readsReceived + if stats then 1 else 0 }
  | .put =>
    match x.held with
    | none => none
    | some f => (x.sys.step cfg (.net f)).map fun s => { x with sys := s, held := none }

def CSys.run (cfg : Cfg) (stats : Bool) (x : CSys) : List CEv → Option CSys
  | [] => some x
  | e :: es => (x.step cfg stats e).bind fun x => x.run cfg stats es

/-- `ConnectionStats` (`conn.go:271-276`). -/
structure ConnectionStats where
  currentWriteChanSize : Nat
  currentReadChanSize : Nat
  writesSent : Nat
  readsReceived : Nat
  deriving DecidableEq, Repr

/-- `Stats` (`conn.go:278-285`). -/
def CSys.stats (x : CSys) : ConnectionStats := ⟨x.sys.writeCh.length, x.sys.readCh.length, x.writesSent, x.readsReceived⟩

end Stomp.Client
