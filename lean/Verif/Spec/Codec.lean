import Verif.Model.Frame
/-!
# Specification vocabulary for the frame codec (independent of the reader/writer model)
-/
namespace Stomp.Spec

/-- The STOMP commands, by name. -/
def commands : List Bytes :=
  [b!"CONNECT", b!"STOMP", b!"CONNECTED", b!"SEND", b!"SUBSCRIBE", b!"UNSUBSCRIBE", b!"ACK", b!"NACK",
   b!"BEGIN", b!"COMMIT", b!"ABORT", b!"DISCONNECT", b!"MESSAGE", b!"RECEIPT", b!"ERROR"]

/-- First value for a key in a list of entries. -/
def firstValue (h : List (Bytes × Bytes)) (k : Bytes) : Option Bytes :=
  (h.find? (fun e => decide (e.1 = k))).map (·.2)

/-- Positional decimal value of a digit string, most significant digit first. -/
def decimal : Bytes → Nat
  | [] => 0
  | c :: cs => (c.toNat - 48) * 10 ^ cs.length + decimal cs

/-- `v` is a non-empty string of ASCII digits denoting `n`. -/
def Numeral (v : Bytes) (n : Nat) : Prop :=
  v ≠ [] ∧ (∀ c ∈ v, 48 ≤ c.toNat ∧ c.toNat ≤ 57) ∧ decimal v = n

/-- The body agrees with the first content-length header, or there is none and the body has no NUL. -/
def BodyOk (f : Frame) : Prop :=
  match firstValue f.header b!"content-length" with
  | some v => Numeral v f.body.length ∧ f.body.length < 2 ^ 32
  | none => (0 : UInt8) ∉ f.body

/-- Frames the property C01 talks about. -/
def WellFormed (f : Frame) : Prop :=
  f.command ∈ commands ∧ (∀ e ∈ f.header, e.1 ≠ []) ∧ BodyOk f

end Stomp.Spec
