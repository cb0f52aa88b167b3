import Verif.Spec.Session
/-!
# Specification of the server's answers

What the server says to each frame of a session (`Spec/Session`): a frame with a meaning (`Step`) is answered by `Answer`, any other by an
ERROR frame that gives the reason, `Refused`.
-/
namespace Stomp.Server.Spec
open Stomp

/-- The frame lists a version. -/
def offers (f : Frame) (v : Bytes) : Prop := ∃ av, hdr f b!"accept-version" = some av ∧ v ∈ splitOn 44 av

/-- The intervals of a `heart-beat` header; none is as good as two zeros. -/
def beats (f : Frame) (x y : Nat) : Prop :=
  hdr f b!"heart-beat" = none ∧ x = 0 ∧ y = 0 ∨
  ∃ a b, hdr f b!"heart-beat" = some (a ++ b!"," ++ b) ∧ Stomp.Spec.Numeral a x ∧ Stomp.Spec.Numeral b y ∧ a.length ≤ 9 ∧ b.length ≤ 9

/-- A frame that may open a session, up to the version. -/
structure knocks (auth : Bytes → Bytes → Bool) (f : Frame) : Prop where
  command : f.command = b!"CONNECT" ∨ f.command = b!"STOMP"
  noReceipt : hdr f b!"receipt" = none
  auth : auth ((hdr f b!"login").getD []) ((hdr f b!"passcode").getD []) = true

/-- The text naming the message of an ACK or NACK. -/
def naming (f : Frame) (s : Bytes) : Prop :=
  hdr f b!"ack" = some s ∨ hdr f b!"ack" = none ∧ hdr f b!"message-id" = some s

/-- The commands of a client. -/
def clientCommands : List Bytes :=
  [b!"CONNECT", b!"STOMP", b!"SEND", b!"SUBSCRIBE", b!"UNSUBSCRIBE", b!"ACK", b!"NACK", b!"BEGIN", b!"COMMIT", b!"ABORT", b!"DISCONNECT"]

/-- The commands of a server that a client must not use (CONNECTED is just unknown). -/
def serverCommands : List Bytes := [b!"MESSAGE", b!"RECEIPT", b!"ERROR"]

/-- `Refused auth wrong st f late t`: in the state `st` the frame `f` is refused for the reason `t`; `late` if this is found out only after the
receipt for the frame. `wrong` is the text for something that should be a number. -/
inductive Refused (auth : Bytes → Bytes → Bool) (wrong : Bytes → Bytes) (st : St) (f : Frame) : Bool → Bytes → Prop
  | notConnect (ho : st.opened = false) (hc : f.command ≠ b!"CONNECT" ∧ f.command ≠ b!"STOMP") :
      Refused auth wrong st f false b!"expected CONNECT or STOMP frame"
  | connectReceipt (ho : st.opened = false) (hc : f.command = b!"CONNECT" ∨ f.command = b!"STOMP") (r : Bytes) (hr : hdr f b!"receipt" = some r) :
      Refused auth wrong st f false b!"receipt header prohibited in CONNECT or STOMP frame"
  | authentication (ho : st.opened = false) (hc : f.command = b!"CONNECT" ∨ f.command = b!"STOMP") (hr : hdr f b!"receipt" = none)
      (ha : auth ((hdr f b!"login").getD []) ((hdr f b!"passcode").getD []) = false) :
      Refused auth wrong st f false b!"authentication failed"
  | tooOld (ho : st.opened = false) (hk : knocks auth f) (h1 : ¬offers f b!"1.1") (h2 : ¬offers f b!"1.2")
      (hv : offers f b!"1.0" ∨ hdr f b!"accept-version" = none ∧ f.command = b!"CONNECT") :
      Refused auth wrong st f false b!"unsupported version"
  | noVersion (ho : st.opened = false) (hk : knocks auth f) (hc : f.command = b!"STOMP") (hv : hdr f b!"accept-version" = none) :
      Refused auth wrong st f false b!"missing header: accept-version"
  | incompatible (ho : st.opened = false) (hk : knocks auth f) (av : Bytes) (hv : hdr f b!"accept-version" = some av)
      (h : ¬offers f b!"1.0" ∧ ¬offers f b!"1.1" ∧ ¬offers f b!"1.2") : Refused auth wrong st f false b!"incompatible version"
  | heartBeat (ho : st.opened = false) (hk : knocks auth f) (hv : offers f b!"1.1" ∨ offers f b!"1.2") (hb : ¬∃ x y, beats f x y) :
      Refused auth wrong st f false b!"invalid format for heart-beat"
  | unexpected (ho : st.opened = true) (hc : f.command = b!"CONNECT" ∨ f.command = b!"STOMP" ∨ f.command ∈ serverCommands) :
      Refused auth wrong st f false b!"unexpected frame command"
  | unknown (ho : st.opened = true) (hc : f.command ∉ clientCommands ++ serverCommands) : Refused auth wrong st f false b!"unknown command"
  | noTransaction (ho : st.opened = true) (hc : f.command = b!"BEGIN" ∨ f.command = b!"COMMIT" ∨ f.command = b!"ABORT")
      (ht : hdr f b!"transaction" = none) : Refused auth wrong st f false b!"missing header: transaction"
  | inProgress (ho : st.opened = true) (hc : f.command = b!"BEGIN") (t : Bytes) (ht : hdr f b!"transaction" = some t) (l : List Frame)
      (hl : st.tx t = some l) : Refused auth wrong st f true b!"transaction already in progress"
  | unknownTx (ho : st.opened = true) (hc : f.command = b!"COMMIT" ∨ f.command = b!"ABORT" ∨ transactional f) (t : Bytes)
      (ht : hdr f b!"transaction" = some t) (hl : st.tx t = none) : Refused auth wrong st f true b!"unknown transaction"
  | noId (ho : st.opened = true) (hc : f.command = b!"SUBSCRIBE" ∨ f.command = b!"UNSUBSCRIBE") (hi : hdr f b!"id" = none) :
      Refused auth wrong st f false b!"missing header: id"
  | noDestination (ho : st.opened = true) (hc : f.command = b!"SUBSCRIBE") (id : Bytes) (hi : hdr f b!"id" = some id)
      (hd : hdr f b!"destination" = none) : Refused auth wrong st f false b!"missing header: destination"
  | exists_ (ho : st.opened = true) (hc : f.command = b!"SUBSCRIBE") (id dest : Bytes) (hi : hdr f b!"id" = some id)
      (hd : hdr f b!"destination" = some dest) (hs : st.subs id = true) : Refused auth wrong st f false b!"subscription already exists"
  | notFound (ho : st.opened = true) (hc : f.command = b!"UNSUBSCRIBE") (id : Bytes) (hi : hdr f b!"id" = some id) (hs : st.subs id = false) :
      Refused auth wrong st f false b!"subscription not found"
  | noMessage (ho : st.opened = true) (hc : f.command = b!"ACK" ∨ f.command = b!"NACK") (hn : ¬∃ s, naming f s) :
      Refused auth wrong st f false b!"missing header: message-id"
  | noNumber (ho : st.opened = true) (hc : f.command = b!"ACK" ∨ f.command = b!"NACK") (s : Bytes) (hs : naming f s) (hn : ¬∃ n, names f n) :
      Refused auth wrong st f false (wrong s)

/-- The RECEIPT frame for a frame, if it asks for one. -/
def receipts (f : Frame) : List Frame := (hdr f b!"receipt").toList.map (fun r => ⟨b!"RECEIPT", [(b!"receipt-id", r)], []⟩)

/-- What is written for a refused frame. The ERROR frame has the receipt id, unless there was a RECEIPT before. -/
def refusalOf (f : Frame) (late : Bool) (t : Bytes) : List Frame :=
  if late then receipts f ++ [⟨b!"ERROR", [(b!"message", t)], []⟩]
  else [⟨b!"ERROR", (b!"message", t) :: (hdr f b!"receipt").toList.map (fun r => (b!"receipt-id", r)), []⟩]

/-- An interval as the server grants it: not below its own minimum (in nanoseconds), which it does not announce as more than 999999999 ms. -/
def granted (min : Int) (x : Nat) : Nat := if x = 0 then 0 else Nat.max x (Nat.min (min / 1000000).toNat 999999999)

/-- What is written for an accepted frame. -/
inductive Answer (auth : Bytes → Bytes → Bool) (min : Int) (st : St) (f : Frame) : List Frame → Prop
  | welcome (ho : st.opened = false) (ha : accepts auth f) (v : Bytes) (x y : Nat) (hb : beats f x y)
      (hv : v = b!"1.2" ∧ offers f b!"1.2" ∨ v = b!"1.1" ∧ offers f b!"1.1" ∧ ¬offers f b!"1.2") :
      Answer auth min st f [⟨b!"CONNECTED", [(b!"version", v), (b!"server", b!"stompd/x.y.z"),
        (b!"heart-beat", fmtUint (granted min y) ++ b!"," ++ fmtUint (granted min x))], []⟩]
  | silence (ho : st.opened = true) (hc : f.command = b!"SUBSCRIBE" ∨ f.command = b!"UNSUBSCRIBE") : Answer auth min st f []
  | receipt (ho : st.opened = true) (hc : f.command ≠ b!"SUBSCRIBE" ∧ f.command ≠ b!"UNSUBSCRIBE") : Answer auth min st f (receipts f)

/-- A session with its answers: the frames, the state they lead to, what is written. -/
inductive Dialogue (auth : Bytes → Bytes → Bool) (min : Int) : List Frame → St → List Frame → Prop
  | start : Dialogue auth min [] St.init []
  | next {fs : List Frame} {f : Frame} {st st' : St} {said a : List Frame} (h : Dialogue auth min fs st said) (hs : Step auth st f st')
      (ha : Answer auth min st f a) : Dialogue auth min (fs ++ [f]) st' (said ++ a)

/-- All that is to be written for a sequence of frames: the answers of a session, or of a session and a last frame that is refused. -/
inductive Script (auth : Bytes → Bytes → Bool) (wrong : Bytes → Bytes) (min : Int) : List Frame → List Frame → Prop
  | session {fs said : List Frame} {st : St} (h : Dialogue auth min fs st said) : Script auth wrong min fs said
  | refused {fs said : List Frame} {st : St} {f : Frame} {late : Bool} {t : Bytes} (h : Dialogue auth min fs st said)
      (hr : Refused auth wrong st f late t) : Script auth wrong min (fs ++ [f]) (said ++ refusalOf f late t)

/-- The frames of an output that are not messages. -/
def spoken (out : List (Option Frame)) : List Frame := (out.filterMap id).filter (fun g => decide (g.command ≠ b!"MESSAGE"))

end Stomp.Server.Spec
