import Verif.Spec.Topic
import Verif.Spec.Messages
import Verif.Spec.Delivery
/-!
# Specification of the order of messages on a topic

Independent of the model of the topic package: the order in which a topic is asked to send messages, and which messages were written to a
connection for one of its subscriptions.
-/
namespace Stomp.Server.Spec
open Stomp Stomp.Server

/-- The message a topic is asked to send. -/
def castOf : TAsk → Option Tag
  | .cast m => some m.tag
  | _ => none

/-- The messages the topic `d` is asked to send to its subscriptions, in order. -/
def broadcast (d : Bytes) (cfg : Config) (es : List Sys.Ev) : List Tag :=
  (observe (askedTopic d) cfg Sys.init es).filterMap castOf

/-- The message of a write for destination `d` and subscription `id`. -/
def writtenFor (d id : Bytes) (w : Wr) : Option Tag :=
  match w.frame with
  | some f => if hdr f b!"destination" = some d ∧ hdr f b!"subscription" = some id then w.tag else none
  | none => none

/-- The messages written to a connection for destination `d` and subscription `id`, in order. -/
def writtenTo (d id : Bytes) (out : List Wr) : List Tag := out.filterMap (writtenFor d id)

/-- Two lists never have two elements in different orders. -/
def SameOrder {α : Type} (l l' : List α) : Prop := ∀ x y, [x, y].Sublist l → [y, x].Sublist l' → False

/-- The frame is a copy of the message `t`: the message sent by connection `t.src` that has this tag has its body and its headers, but for those the server sets. -/
def CopyOf (s : Sys) (t : Tag) (f : Frame) : Prop :=
  f.command = b!"MESSAGE" ∧ ∃ k o, s.conns[t.src]? = some k ∧ o ∈ messages t.src 0 k.effective ∧ o.tag = t ∧ f.body = o.frame.body ∧ others f.header = others o.frame.header

/-- The topic `d` is asked to send the message `m` at a time when the subscription `r` is one of its subscriptions: `r` has subscribed, and not unsubscribed. -/
def SentTo (d : Bytes) (cfg : Config) (es : List Sys.Ev) (m : Msg) (r : SubRef) : Prop :=
  ∃ before after, observe (askedTopic d) cfg Sys.init es = before ++ .cast m :: after ∧ .subscribe r ∈ before ∧ .unsubscribe r ∉ before

end Stomp.Server.Spec
