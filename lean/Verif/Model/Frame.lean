import Verif.Model.Header
/-! # `frame.Frame` and the command constants -/
namespace Stomp

/-! Commands (`frame/command.go:5-26`). -/
namespace Cmd
def connect : Bytes := b!"CONNECT"
def stomp : Bytes := b!"STOMP"
def connected : Bytes := b!"CONNECTED"
def send : Bytes := b!"SEND"
def subscribe : Bytes := b!"SUBSCRIBE"
def unsubscribe : Bytes := b!"UNSUBSCRIBE"
def ack : Bytes := b!"ACK"
def nack : Bytes := b!"NACK"
def begin_ : Bytes := b!"BEGIN"
def commit : Bytes := b!"COMMIT"
def abort : Bytes := b!"ABORT"
def disconnect : Bytes := b!"DISCONNECT"
def message : Bytes := b!"MESSAGE"
def receipt : Bytes := b!"RECEIPT"
def error : Bytes := b!"ERROR"
end Cmd

/-- `frame.Frame` (`frame/frame.go:9-13`). -/
structure Frame where
  command : Bytes
  header : Header
  body : Bytes
  deriving DecidableEq, Repr, Inhabited

/-- `frame.New(command, headers...)` (`frame/frame.go:18-24`) with the header list given as pairs. An odd
number of header arguments makes the Go code panic; no caller in the repository does that. -/
def Frame.new (command : Bytes) (hs : List (Bytes × Bytes)) : Frame :=
  { command, header := hs.foldl (fun h e => h.add e.1 e.2) [], body := [] }

/-- `(*Frame).Clone` (`frame/frame.go:28-38`) at the value level. -/
def Frame.clone (f : Frame) : Frame :=
  { command := f.command, header := f.header.clone, body := f.body }

/-- ack header values (`frame/ack.go:4-8`). -/
def ackAuto : Bytes := b!"auto"
def ackClient : Bytes := b!"client"
def ackClientIndividual : Bytes := b!"client-individual"

end Stomp
