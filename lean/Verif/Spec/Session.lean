import Verif.Spec.Codec
/-!
# Specification of a server session: what a sequence of client frames means

Independent of the server model: a session is a handshake followed by operations on open transactions and
subscription ids. `done` lists the SEND, ACK and NACK frames that have taken effect, in order.
-/
namespace Stomp.Server.Spec
open Stomp

/-- The value of a header. -/
def hdr (f : Frame) (k : Bytes) : Option Bytes := Stomp.Spec.firstValue f.header k

/-- First frames the server must accept. -/
structure accepts (auth : Bytes → Bytes → Bool) (f : Frame) : Prop where
  command : f.command = b!"CONNECT" ∨ f.command = b!"STOMP"
  noReceipt : hdr f b!"receipt" = none
  auth : auth ((hdr f b!"login").getD []) ((hdr f b!"passcode").getD []) = true
  version : ∃ av, hdr f b!"accept-version" = some av ∧ (b!"1.1" ∈ splitOn 44 av ∨ b!"1.2" ∈ splitOn 44 av)
  heartBeat : hdr f b!"heart-beat" = none ∨
    ∃ a b n m, hdr f b!"heart-beat" = some (a ++ b!"," ++ b) ∧ Stomp.Spec.Numeral a n ∧ Stomp.Spec.Numeral b m ∧
      a.length ≤ 9 ∧ b.length ≤ 9

/-- The frame without its receipt and transaction headers: what is left of it when it takes effect. -/
def clean (f : Frame) : Frame :=
  { f with header := f.header.filter (fun e => decide (e.1 ≠ b!"receipt" ∧ e.1 ≠ b!"transaction")) }

/-- An ACK or NACK names its message by a number in the `ack` header, or in the `message-id` header if there is
no `ack` header. -/
def names (f : Frame) (n : Nat) : Prop :=
  ∃ s, (hdr f b!"ack" = some s ∨ hdr f b!"ack" = none ∧ hdr f b!"message-id" = some s) ∧
    Stomp.Spec.Numeral s n ∧ n < 2 ^ 64

/-- A frame that can be part of a transaction. -/
def transactional (f : Frame) : Prop :=
  f.command = b!"SEND" ∨ (f.command = b!"ACK" ∨ f.command = b!"NACK") ∧ ∃ n, names f n

/-- Assignment at one key. -/
def upd {α : Type} (g : Bytes → α) (k : Bytes) (v : α) : Bytes → α := fun x => if x = k then v else g x

/-- The state of a session. -/
structure St where
  opened : Bool
  tx : Bytes → Option (List Frame)
  subs : Bytes → Bool
  done : List Frame

/-- The start. -/
def St.init : St := ⟨false, fun _ => none, fun _ => false, []⟩

/-- What each frame means. Frames without a transition are protocol errors. -/
inductive Step (auth : Bytes → Bytes → Bool) (st : St) (f : Frame) : St → Prop
  | connect (ho : st.opened = false) (ha : accepts auth f) : Step auth st f { st with opened := true }
  | disconnect (ho : st.opened = true) (hc : f.command = b!"DISCONNECT") : Step auth st f st
  | begin_ (t : Bytes) (ho : st.opened = true) (hc : f.command = b!"BEGIN") (ht : hdr f b!"transaction" = some t)
      (hn : st.tx t = none) : Step auth st f { st with tx := upd st.tx t (some []) }
  | abort (t : Bytes) (l : List Frame) (ho : st.opened = true) (hc : f.command = b!"ABORT")
      (ht : hdr f b!"transaction" = some t) (hl : st.tx t = some l) :
      Step auth st f { st with tx := upd st.tx t none }
  | commit (t : Bytes) (l : List Frame) (ho : st.opened = true) (hc : f.command = b!"COMMIT")
      (ht : hdr f b!"transaction" = some t) (hl : st.tx t = some l) :
      Step auth st f { st with tx := upd st.tx t none, done := st.done ++ l }
  | hold (t : Bytes) (l : List Frame) (ho : st.opened = true) (hc : transactional f)
      (ht : hdr f b!"transaction" = some t) (hl : st.tx t = some l) :
      Step auth st f { st with tx := upd st.tx t (some (l ++ [clean f])) }
  | now (ho : st.opened = true) (hc : transactional f) (ht : hdr f b!"transaction" = none) :
      Step auth st f { st with done := st.done ++ [clean f] }
  | subscribe (id dest : Bytes) (ho : st.opened = true) (hc : f.command = b!"SUBSCRIBE") (hi : hdr f b!"id" = some id)
      (hd : hdr f b!"destination" = some dest) (hs : st.subs id = false) :
      Step auth st f { st with subs := upd st.subs id true }
  | unsubscribe (id : Bytes) (ho : st.opened = true) (hc : f.command = b!"UNSUBSCRIBE") (hi : hdr f b!"id" = some id)
      (hs : st.subs id = true) : Step auth st f { st with subs := upd st.subs id false }

/-- The state after a sequence of frames without a protocol error. -/
inductive After (auth : Bytes → Bytes → Bool) : List Frame → St → Prop
  | nil : After auth [] St.init
  | snoc {fs : List Frame} {f : Frame} {st st' : St} (h : After auth fs st) (hs : Step auth st f st') :
      After auth (fs ++ [f]) st'

end Stomp.Server.Spec
