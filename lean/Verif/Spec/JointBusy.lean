import Verif.Spec.Busy
import Verif.Spec.ClientBusy
import Verif.Spec.Joint
/-! # Specification: what server and clients do by themselves -/
namespace Stomp.Joint.Spec
open Stomp

/-- What server and clients do by themselves. From outside come the connections, the calls of the programs, the failures of a connection as seen by a reader, the times at which heart-beats and read timeouts of the server are due, and other uses of the id counters.
That bytes arrive at the other end counts as their own doing. -/
def Own : Ev → Prop
  | .dial .. => False
  | .welcome .. => True
  | .client _ _ (.net _) => True
  | .client _ _ e => Client.Spec.Own e
  | .server _ (.conn _ (.recv _)) => True
  | .server _ e => Server.Spec.Own e

/-- The same, without waiting for a timer of a client. -/
def Prompt : Ev → Prop
  | .client _ _ (.timeout _) => False
  | .client _ _ (.loopTimeout _) => False
  | e => Own e

/-- Server and clients can do nothing by themselves, unless a timer fires. -/
def Still (cfg : Server.Config) (s : State) : Prop := ∀ e, Prompt e → s.step cfg e = none

/-- No write to the network fails in this event, unless the client has closed the connection itself. -/
def Smooth (s : State) : Ev → Prop
  | .client c _ (.loopWrite false _) => ∃ p, s.peers[c]? = some p ∧ p.client.netClosed = true
  | .server _ e => Server.Spec.Smooth e
  | _ => True

/-- All events of this continuation are `Prompt` and `Smooth`. -/
def Calm (cfg : Server.Config) (s : State) : List Ev → Prop
  | [] => True
  | e :: es => Prompt e ∧ Smooth s e ∧ ∀ s', s.step cfg e = some s' → Calm cfg s' es

/-- A client and its connection go on working: the client is connected and has not crashed, `processLoop` is at its `select`, and the connection is open at the server. The channels `readCh` and `writeCh` have a buffer, as by default. -/
structure Working (p : Peer) (k : Server.Conn) : Prop where
  welcomed : p.welcome.isSome = true
  alive : p.client.crashed = none
  select : p.client.loop = .select
  room : 0 < p.cfg.readCap ∧ 0 < p.cfg.writeCap
  opened : k.stage = .run ∧ k.wfail = false

/-- The client has nothing to do: all that the server has written is read and dealt with, all its requests are written, the server has read all of them, the program has received all there was, and the `readLoop` of each subscription that is not closed waits for a frame. -/
structure Through (p : Peer) (k : Server.Conn) : Prop where
  idle : Idle p k
  requests : p.client.writeCh = []
  read : takenIn k = (p.up.filterMap id).length
  subs : ∀ b ∈ p.client.subs, b.buf = [] ∧ (b.rl = .recv ∨ b.state = .closed)

end Stomp.Joint.Spec
