import Verif.Spec.Client
import Verif.Spec.Header
import Verif.Spec.Codec
/-!
# What a client may say

The client's side of a connection as the STOMP specifications 1.0, 1.1 and 1.2 describe it: the frames a client sends, the headers each of them must
have, and their order. `said` is what the client has sent, with `none` for a heart-beat.
-/
namespace Stomp.Client.Spec
open Stomp

/-- The value that counts of a header. -/
abbrev val (f : Frame) (k : Bytes) : Option Bytes := Stomp.Spec.firstValue f.header k

/-- The frame that opens a connection: it names the host and the versions the client knows. -/
structure Opens (f : Frame) : Prop where
  command : f.command = b!"CONNECT" ∨ f.command = b!"STOMP"
  host : ∃ h, val f b!"host" = some h ∧ h ≠ []
  versions : (val f b!"accept-version").isSome

/-- The frame `f` may be sent in a session of version `v` in which the frames `before` have been sent. -/
inductive Asks (v : Bytes) (before : List Frame) (f : Frame) : Prop
  | send (hc : f.command = b!"SEND") (hd : (val f b!"destination").isSome)
  | subscribe (hc : f.command = b!"SUBSCRIBE") (hd : (val f b!"destination").isSome) (hi : (val f b!"id").isSome)
      (ha : ∃ m, val f b!"ack" = some m ∧ m ∈ [b!"auto", b!"client", b!"client-individual"])
  | unsubscribe (hc : f.command = b!"UNSUBSCRIBE") (i : Bytes) (hi : val f b!"id" = some i)
      (hs : ∃ q ∈ before, q.command = b!"SUBSCRIBE" ∧ val q b!"id" = some i)
  | ack12 (hv : v = b!"1.2") (hc : f.command = b!"ACK" ∨ f.command = b!"NACK") (hi : (val f b!"id").isSome)
  | ack11 (hv : v = b!"1.1") (hc : f.command = b!"ACK" ∨ f.command = b!"NACK") (hm : (val f b!"message-id").isSome) (hs : (val f b!"subscription").isSome)
  | ack10 (hv : v = b!"1.0") (hc : f.command = b!"ACK") (hm : (val f b!"message-id").isSome)
  | transaction (hc : f.command = b!"BEGIN" ∨ f.command = b!"COMMIT" ∨ f.command = b!"ABORT") (ht : (val f b!"transaction").isSome)

/-- The frames of a stream. -/
def framesOf (l : List (Option Frame)) : List Frame := l.filterMap id

/-- The opening frame, frames that may be sent in a session and heart-beats, and possibly a DISCONNECT, after which no frame follows. -/
def Conversation (v : Bytes) (said : List (Option Frame)) : Prop :=
  ∃ g rest, said = some g :: rest ∧ Opens g ∧
    ∀ a f b, rest = a ++ some f :: b → Asks v (framesOf a) f ∨ f.command = b!"DISCONNECT" ∧ framesOf b = []

/-- The frame is one that `Ack`, `Nack`, `Begin` or a method of a transaction makes in a session of version `v`. -/
def Made (v : Bytes) (f : Frame) : Prop :=
  (∃ m a, createAckNackFrame v m a = .ok (some f)) ∨ (∃ last, f = (txBegin last).2.2) ∨ ∃ last tx call ok, (txStep v last tx call ok).2.2.1 = some f

/-- No MESSAGE has been read for a "subscription" that has the name of the receipt a DISCONNECT of the client asks for. -/
def Unmistaken (s : Sys) : Prop :=
  ∀ m, .read (some m) ∈ s.trace → m.command = b!"MESSAGE" → ∀ r ∈ handedOver s, r.frame.command = b!"DISCONNECT" →
    val m b!"subscription" ≠ val r.frame b!"receipt"

/-- Every MESSAGE that has been read is for a subscription of the client: it has the id of a SUBSCRIBE that the client has handed over. -/
def Addressed (s : Sys) : Prop :=
  ∀ m, .read (some m) ∈ s.trace → m.command = b!"MESSAGE" → ∃ r ∈ handedOver s, r.frame.command = b!"SUBSCRIBE" ∧
    ∃ i, val m b!"subscription" = some i ∧ val r.frame b!"id" = some i

end Stomp.Client.Spec
