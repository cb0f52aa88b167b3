import Verif.Spec.Client
import Verif.Spec.Codec
/-! # What the client puts on the wire, and which calls are unproblematic there -/
namespace Stomp.Client.Spec
open Stomp

/-- The frames and heart-beats (`none`) written so far, in order. -/
def stream (s : Sys) : List (Option Frame) :=
  s.trace.filterMap fun o => match o with
    | .sent f => some (some f)
    | .beat => some none
    | _ => none

/-- The arguments of a `Send` are unproblematic: no empty header name, the body can be announced, and without the announcement
it contains no NUL and no option sets another length. -/
structure SendSound (body : Bytes) (opts : List SendOpt) : Prop where
  names : ∀ k v, SendOpt.header k v ∈ opts → k ≠ []
  length : body.length < 2 ^ 32
  bare : SendOpt.noContentLength ∈ opts → (0 : UInt8) ∉ body ∧ ∀ k v, SendOpt.header k v ∈ opts → k ≠ b!"content-length"

/-- The options of a `Subscribe` or `Unsubscribe` are unproblematic: no empty header name, no length. -/
def SubSound (opts : List SubOpt) : Prop := ∀ k v, SubOpt.header k v ∈ opts → k ≠ [] ∧ k ≠ b!"content-length"

/-- A call is unproblematic. -/
def Sound : Call → Prop
  | .send _ _ body opts => SendSound body opts
  | .frame f => Stomp.Spec.WellFormed f
  | .subscribe _ _ opts => SubSound opts
  | .unsubscribe _ opts => SubSound opts
  | .disconnect => True
  | .mustDisconnect => True

end Stomp.Client.Spec
