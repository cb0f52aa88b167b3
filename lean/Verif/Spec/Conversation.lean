import Verif.Spec.Dialogue
/-!
# What a server may say

The server's side of a connection as the STOMP specifications 1.1 and 1.2 describe it: the frames a server sends, the headers each of them must have,
and their order. `asked` are the frames of the client, `said` what the server has sent, with `none` for a heart-beat.
-/
namespace Stomp.Server.Spec
open Stomp

/-- The CONNECTED frame for the client's first frame: it names a version the client offers. -/
structure Greets (f g : Frame) : Prop where
  command : g.command = b!"CONNECTED"
  version : ∃ v, hdr g b!"version" = some v ∧ (v = b!"1.1" ∨ v = b!"1.2") ∧ offers f v

/-- A RECEIPT frame that somebody asked for. -/
structure Confirms (asked : List Frame) (g : Frame) : Prop where
  command : g.command = b!"RECEIPT"
  receiptId : ∃ f ∈ asked, ∃ r, hdr f b!"receipt" = some r ∧ hdr g b!"receipt-id" = some r

/-- A MESSAGE frame: it has a message-id, the destination, and the id of a subscription for this destination. -/
structure Tells (asked : List Frame) (g : Frame) : Prop where
  command : g.command = b!"MESSAGE"
  messageId : (hdr g b!"message-id").isSome
  subscription : ∃ q ∈ asked, q.command = b!"SUBSCRIBE" ∧
    ∃ i d, hdr q b!"id" = some i ∧ hdr q b!"destination" = some d ∧ hdr g b!"subscription" = some i ∧ hdr g b!"destination" = some d

/-- An ERROR frame that says what is wrong. -/
structure Complains (g : Frame) : Prop where
  command : g.command = b!"ERROR"
  message : (hdr g b!"message").isSome

/-- Heart-beats from the server have been agreed on: the client wants them, and the server has announced them. -/
structure Agreed (f g : Frame) : Prop where
  wanted : ∃ x y, beats f x y ∧ 0 < y
  announced : ∃ a b x y, hdr g b!"heart-beat" = some (a ++ b!"," ++ b) ∧ Stomp.Spec.Numeral a x ∧ Stomp.Spec.Numeral b y ∧ 0 < x

/-- What may be sent in a session. -/
inductive During (asked : List Frame) (f g : Frame) : Option Frame → Prop
  | beat (h : Agreed f g) : During asked f g none
  | receipt (r : Frame) (h : Confirms asked r) : During asked f g (some r)
  | message (m : Frame) (h : Tells asked m) : During asked f g (some m)

/-- Nothing yet; or an ERROR frame and nothing else; or the CONNECTED frame, what may be sent in a session, and possibly an ERROR frame, after which
nothing follows. -/
def Conversation (asked : List Frame) (said : List (Option Frame)) : Prop :=
  said = [] ∨ (∃ e, Complains e ∧ said = [some e]) ∨
  ∃ f rest g middle last, asked = f :: rest ∧ said = some g :: (middle ++ last) ∧ Greets f g ∧ (∀ x ∈ middle, During asked f g x) ∧
    (last = [] ∨ ∃ e, Complains e ∧ last = [some e])

end Stomp.Server.Spec
