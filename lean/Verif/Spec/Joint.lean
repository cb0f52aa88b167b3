import Verif.Model.Joint
import Verif.Spec.EndToEnd
import Verif.Spec.TopicOrder
/-! # Specification: executions of server and clients together -/
namespace Stomp.Joint.Spec
open Stomp

/-- What the program does is unproblematic: the first frame is a well-formed CONNECT frame (as `Connect` writes it, C14), the arguments of the calls can be represented on the wire. -/
def Sane : Ev → Prop
  | .dial _ _ hello => hello.command = b!"CONNECT" ∧ Stomp.Spec.WellFormed hello
  | .client _ _ (.call x) => Client.Spec.Sound x
  | _ => True

/-- `s` is the state after an execution of server and clients, in which the server has not crashed. -/
structure Reached (cfg : Server.Config) (s : State) : Prop where
  run : ∃ es, State.init.run cfg es = some s ∧ ∀ e ∈ es, Sane e
  up : s.server.crashed = false

/-- A peer as the one of C57 and C61 to C64. -/
def Peer.view (p : Peer) : Stomp.Spec.Peer where
  cfg := p.cfg
  counter := p.counter
  events := p.events
  state := p.client
  hello := p.hello
  welcome := p.welcome.getD p.hello

/-- The frames the server has written to a client. -/
def writtenTo (k : Server.Conn) : List Frame := k.out.filterMap (·.frame)

/-- The MESSAGE frames for the subscription with id `i`. -/
def forSub (i : Bytes) (l : List Frame) : List Frame :=
  l.filter fun g => decide (g.command = b!"MESSAGE" ∧ Stomp.Spec.firstValue g.header b!"subscription" = some i)

/-- The client has nothing to do: all that the server has written is read, `processLoop` is at its select, with nothing left in `readCh`. -/
def Idle (p : Peer) (k : Server.Conn) : Prop :=
  1 + p.reads = k.out.length ∧ p.client.readCh = [] ∧ p.client.loop = .select

instance (p : Peer) (k : Server.Conn) : Decidable (Idle p k) := by unfold Idle; infer_instance

/-- The server has nothing to do, and all its connections are open: no request waits, nothing is to be handed over to a connection, and no connection has anything to process, to ask for or to write. -/
structure AtRest (s : Server.Sys) : Prop where
  requests : s.reqCh = []
  deliveries : s.todo = []
  conns : ∀ k ∈ s.conns, k.stage = .run ∧ k.wfail = false ∧ k.inq = [] ∧ k.outbox = [] ∧ k.subCh = [] ∧ k.writeCh = []

/-- The client has nothing to do, and its connection is open: all its requests are written, the server has read all of them, the client has read all that the server has written, and no subscription
is busy handing over a message to the program. -/
structure Settled (p : Peer) (k : Server.Conn) : Prop where
  idle : Idle p k
  requests : p.client.writeCh = []
  read : takenIn k = (p.up.filterMap id).length
  subs : ∀ b ∈ p.client.subs, b.rl = .recv

/-- The program never gives up a subscription. -/
def Stays (p : Peer) : Prop := ∀ t r, .accepted t r ∈ p.client.trace → r.frame.command ≠ b!"UNSUBSCRIBE"

/-- Some program has got the message `t`: a copy of it was put on `C` of one of its subscriptions. -/
def Arrived (s : State) (t : Server.Tag) : Prop :=
  ∃ (c : Nat) (p : Peer) (i : Nat) (b : Client.Sub) (g : Frame), s.peers[c]? = some p ∧ p.client.subs[i]? = some b ∧ g ∈ Stomp.Spec.messagesOn b ∧ Server.Spec.CopyOf s.server t g

/-- The program has got the message `t` on `C` of the subscription which the server calls `r`. -/
def ArrivedAt (s : State) (r : Server.SubRef) (t : Server.Tag) : Prop :=
  ∃ (p : Peer) (i : Nat) (b : Client.Sub) (u : Server.Sub) (g : Frame), s.peers[r.conn]? = some p ∧ p.client.subs[i]? = some b ∧ Server.Spec.theSub s.server r = some u ∧ b.id = u.id ∧
    g ∈ Stomp.Spec.messagesOn b ∧ Server.Spec.CopyOf s.server t g

/-- A message put on `C` which tells of an error: not made from a MESSAGE frame. -/
def tellsError : Client.CMsg → Bool
  | .msg _ => false
  | _ => true

end Stomp.Joint.Spec
