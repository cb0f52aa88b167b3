import Verif.Model.Client.Message
import Verif.Model.Server.System
import Verif.Model.Codec
import Verif.Spec.ClientWire
import Verif.Spec.Delivery
import Verif.Spec.Received
/-! # Specification: clients and server connected by byte streams, and what arrives -/
namespace Stomp.Spec
open Stomp

/-- `received` are frames read so far from a transport into which `sent` was written: some of the bytes have arrived, and some of the frames in them have been read. -/
def Carries (sent : List (Option Frame)) (received : List Frame) : Prop :=
  ∃ bytes, bytes <+: (sent.map writeFrame).flatten ∧ received <+: (readAll bytes).1.filterMap id

/-- A program using the client: what the environment and the program did, and the state reached. The program has connected with the frame `hello`, to which the
server's answer was `welcome`. -/
structure Peer where
  cfg : Client.Cfg
  counter : Nat
  events : List Client.Ev
  state : Client.Sys
  hello : Frame
  welcome : Frame

/-- The execution is one of the client; the calls are unproblematic; the first frame is a well-formed CONNECT frame. -/
structure Peer.Ok (p : Peer) : Prop where
  run : (Client.Sys.init p.counter).run p.cfg p.events = some p.state
  sound : ∀ c, .call c ∈ p.events → Client.Spec.Sound c
  hello : p.hello.command = b!"CONNECT" ∧ WellFormed p.hello

/-- The frames `readLoop` has read. -/
def framesRead (s : Client.Sys) : List Frame := s.trace.filterMap fun | .read x => x | _ => none

/-- The MESSAGE frames whose messages were put on the channel `C` of a subscription. -/
def messagesOn (b : Client.Sub) : List Frame := b.got.filterMap fun | .msg f => some f | _ => none

/-- Headers that are the application's, whatever the other ones are. -/
def plain (h : Header) : Header :=
  h.filter (fun e => decide (e.1 ∉ [b!"subscription", b!"message-id", b!"id", b!"ack", b!"receipt", b!"transaction", b!"content-length"]))

/-- The headers given to `Send`, in order. -/
def given (dest ctype : Bytes) (opts : List Client.SendOpt) : Header :=
  (b!"destination", dest) :: (if ctype = [] then [] else [(b!"content-type", ctype)]) ++ opts.filterMap (fun | .header k v => some (k, v) | _ => none)

/-- The message conveys what the call sent to the destination. -/
def Conveys (dest : Bytes) (m : Client.Message) : Client.Call → Prop
  | .send d ctype body opts => d = dest ∧ m.destination = d ∧ (ctype ≠ [] → m.contentType = ctype) ∧ m.body = body ∧ plain m.header = plain (given d ctype opts)
  | .frame f => f.command = b!"SEND" ∧ firstValue f.header b!"destination" = some dest ∧ m.destination = dest ∧ m.body = f.body ∧ plain m.header = plain f.header
  | _ => False

end Stomp.Spec
