import Verif.Model.Client.System
import Verif.Model.Server.System
import Verif.Model.Codec
/-!
# Server and clients together

The server (`Model/Server/System.lean`), any number of clients (`Model/Client/System.lean`), and between them, for every connection, two streams of bytes, all in one execution: what is written at
one end is read at the other one, later, cut into pieces in any way. One event of the whole is one event of the server or of one client; reading a frame is possible only if the bytes of this frame
are among those written before.

Simplifications: `Connect` (`conn.go:100-244`) is two steps, the writing of the CONNECT frame (any frame; what it is, is in `Model/Client/Connect.lean`) and the reading of the answer. As in the two
models, a write succeeds completely or fails without a byte on the wire, and bytes can get lost only together with everything that comes later (the reader gets an error, which is possible at every
moment).
-/
namespace Stomp.Joint
open Stomp

/-- A client: its configuration, the value of the id counter of its process when it connected, the CONNECT frame written (`conn.go:159`), the CONNECTED frame read (`conn.go:170-185`, none: not yet),
and its state. `events`, what has happened to it, is not in the code. -/
structure Peer where
  cfg : Client.Cfg
  counter : Nat
  hello : Frame
  welcome : Option Frame
  client : Client.Sys
  events : List Client.Ev
  deriving DecidableEq, Repr

/-- The server and the clients; client number `c` is at the other end of connection number `c`. `events`, what has happened to the server, is not in the code. -/
structure State where
  server : Server.Sys
  peers : List Peer
  events : List Server.Sys.Ev

/-- What can happen: a client dials, is accepted, and writes a CONNECT frame; a client which waits for the answer, reads it; another step of a client; another step of the server. `n` is the number
of bytes that have arrived at the one who reads. -/
inductive Ev
  | dial (cfg : Client.Cfg) (counter : Nat) (hello : Frame)
  | welcome (c : Nat) (n : Nat)
  | client (c : Nat) (n : Nat) (e : Client.Ev)
  | server (n : Nat) (e : Server.Sys.Ev)

/-- Nobody is connected. -/
def State.init : State := { server := Server.Sys.init, peers := [], events := [] }

/-- What the client has written: the CONNECT frame (`conn.go:159`), then what `processLoop` writes (`conn.go:335`, `conn.go:453`). -/
def Peer.up (p : Peer) : List (Option Frame) :=
  some p.hello :: p.client.trace.filterMap fun | .sent f => some (some f) | .beat => some none | _ => none

/-- What the server has written to the client. -/
def down (k : Server.Conn) : List (Option Frame) := k.out.map (·.frame)

/-- The bytes of what was written (`frame/writer.go:31-100`). -/
def wireBytes (l : List (Option Frame)) : Bytes := (l.map writeFrame).flatten

/-- What can be read from the first `n` bytes (`frame/reader.go:47-140`). -/
def legible (l : List (Option Frame)) (n : Nat) : List (Option Frame) := (readAll ((wireBytes l).take n)).1

/-- How much `readLoop` (`conn.go:289-304`) has read. -/
def Peer.reads (p : Peer) : Nat := (p.client.trace.filterMap fun | .read x => some x | _ => none).length

/-- How many frames the server has read from the connection: those processed and those that wait (`server/client/conn.go:117-183`; heart-beats are skipped there, `144-147`). -/
def takenIn (k : Server.Conn) : Nat := k.hist.length + k.inq.length

/-- The client can do this: what it reads is the next thing in the stream (the first one was read by `Connect`). -/
def Peer.can (p : Peer) (k : Server.Conn) (n : Nat) : Client.Ev → Bool
  | .net x => decide ((legible (down k) n)[1 + p.reads]? = some x)
  | _ => true

/-- The server can do this: what it reads is the next frame in the stream. (For `.accept` see `dial`.) -/
def State.can (s : State) (n : Nat) : Server.Sys.Ev → Bool
  | .accept => false
  | .conn c (.recv f) =>
    match s.peers[c]?, s.server.conns[c]? with
    | some p, some k => decide (((legible p.up n).filterMap id)[takenIn k]? = some f)
    | _, _ => false
  | _ => true

def State.step (cfg : Server.Config) (s : State) : Ev → Option State
  | .dial ccfg counter hello =>
    match s.server.step cfg .accept with
    | some srv => some { server := srv, events := s.events ++ [.accept],
                         peers := s.peers ++ [{ cfg := ccfg, counter := counter, hello := hello, welcome := none, client := Client.Sys.init counter, events := [] }] }
    | none => none
  | .welcome c n =>
    match s.peers[c]?, s.server.conns[c]? with
    | some p, some k =>
      match p.welcome, (legible (down k) n).head? with
      | none, some (some w) => if w.command = Cmd.connected then some { s with peers := s.peers.set c { p with welcome := some w } } else none
      | _, _ => none
    | _, _ => none
  | .client c n e =>
    match s.peers[c]?, s.server.conns[c]? with
    | some p, some k =>
      if p.welcome.isSome && p.can k n e then
        match p.client.step p.cfg e with
        | some cl => some { s with peers := s.peers.set c { p with client := cl, events := p.events ++ [e] } }
        | none => none
      else none
    | _, _ => none
  | .server n e =>
    if s.can n e then
      match s.server.step cfg e with
      | some srv => some { s with server := srv, events := s.events ++ [e] }
      | none => none
    else none

def State.run (cfg : Server.Config) (s : State) : List Ev → Option State
  | [] => some s
  | e :: es => match s.step cfg e with
    | some s' => s'.run cfg es
    | none => none

end Stomp.Joint
