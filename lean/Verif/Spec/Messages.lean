import Verif.Model.Server.Conn
/-! # Specification: the messages a client has sent -/
namespace Stomp.Server.Spec
open Stomp

/-- Specification: the messages of a sequence of frames that took effect: the SEND frames, in order, each turned into a MESSAGE frame. -/
def messages (me : Nat) : Nat → List Frame → List Msg
  | _, [] => []
  | i, f :: fs =>
    if f.command = b!"SEND" then ⟨⟨me, i⟩, { f with command := b!"MESSAGE" }⟩ :: messages me (i + 1) fs
    else messages me i fs

end Stomp.Server.Spec
