import Verif.Spec.Codec
/-!
# How the STOMP specification says a frame is to be read

Written after the text of the STOMP 1.0, 1.1 and 1.2 specifications, not after the code: "Standards Based" and "Augmented BNF", "Value Encoding". A reader that takes the specification at its word
and is strict: what the specification forbids is refused. Simplification: the commands are those of version 1.2 for all versions.
-/
namespace Stomp.Std
open Stomp

/-- The versions of the protocol. -/
inductive Ver | v10 | v11 | v12
  deriving DecidableEq, Repr

/-- Frames whose headers are not escaped: all of version 1.0; CONNECT and CONNECTED always, "in order to remain backward compatible with STOMP 1.0". -/
def exempt (v : Ver) (cmd : Bytes) : Bool := decide (v = .v10) || decide (cmd = b!"CONNECT") || decide (cmd = b!"CONNECTED")

/-- What may come after a backslash and what it means. 1.1: `\n`, `\c`, `\\`; 1.2: also `\r`. -/
def escapes : Ver → List (UInt8 × UInt8)
  | .v10 => []
  | .v11 => [(110, 10), (99, 58), (92, 92)]
  | .v12 => [(114, 13), (110, 10), (99, 58), (92, 92)]

/-- "Undefined escape sequences such as `\t` MUST be treated as fatal protocol error." -/
def unescape (v : Ver) : Bytes → Option Bytes
  | [] => some []
  | [c] => if c = 92 then none else some [c]
  | c :: d :: cs =>
    if c = 92 then
      match (escapes v).lookup d with
      | none => none
      | some b => (unescape v cs).map (b :: ·)
    else (unescape v (d :: cs)).map (c :: ·)

/-- The text of a header name or value. -/
def text (v : Ver) (cmd s : Bytes) : Option Bytes := if exempt v cmd then some s else unescape v s

/-- Everything before the first `d`, and everything after it. -/
def upTo (d : UInt8) : Bytes → Option (Bytes × Bytes)
  | [] => none
  | b :: bs => if b = d then some ([], bs) else (upTo d bs).map (fun p => (b :: p.1, p.2))

/-- The end of a line is LF; in 1.2 it is LF or CR LF. -/
def chop (v : Ver) (l : Bytes) : Bytes := if v = .v12 ∧ l.getLast? = some 13 then l.dropLast else l

/-- A header line: a name that is not empty, a colon, a value. From 1.1 on the value has no colon; in 1.2 neither has a CR. -/
def header (v : Ver) (cmd l : Bytes) : Option (Bytes × Bytes) :=
  match upTo 58 l with
  | none => none
  | some (k, x) =>
    if k = [] ∨ (v = .v12 ∧ 13 ∈ l) ∨ (v ≠ .v10 ∧ 58 ∈ x) then none
    else
      match text v cmd k, text v cmd x with
      | some k, some x => some (k, x)
      | _, _ => none

/-- Header lines, up to the blank line; the number bounds how many there are. -/
def headers (v : Ver) (cmd : Bytes) : Nat → Bytes → Option (List (Bytes × Bytes) × Bytes)
  | 0, _ => none
  | n + 1, inp =>
    match upTo 10 inp with
    | none => none
    | some (l, rest) =>
      if chop v l = [] then some ([], rest)
      else
        match header v cmd (chop v l), headers v cmd n rest with
        | some h, some (hs, rest) => some (h :: hs, rest)
        | _, _ => none

/-- The body: as many octets as the first content-length header says, and then NUL; without that header, up to the first NUL. -/
def body (hs : List (Bytes × Bytes)) (inp : Bytes) : Option (Bytes × Bytes) :=
  match Spec.firstValue hs b!"content-length" with
  | none => upTo 0 inp
  | some x =>
    if x ≠ [] ∧ x.all (fun c => 48 ≤ c.toNat && c.toNat ≤ 57) = true then
      if (inp.drop (Spec.decimal x)).head? = some 0 then some (inp.take (Spec.decimal x), inp.drop (Spec.decimal x + 1)) else none
    else none

/-- A frame and what comes after it. -/
def decode (v : Ver) (inp : Bytes) : Option (Frame × Bytes) :=
  match upTo 10 inp with
  | none => none
  | some (l, rest) =>
    if chop v l ∈ Spec.commands then
      match headers v (chop v l) (rest.length + 1) rest with
      | none => none
      | some (hs, rest) =>
        match body hs rest with
        | none => none
        | some (b, rest) => some ({ command := chop v l, header := hs, body := b }, rest)
    else none

/-- A stream of frames: between them there may be ends of lines (heart-beats). -/
inductive Stream (v : Ver) : Bytes → List Frame → Prop
  | done : Stream v [] []
  | eol {r : Bytes} {fs : List Frame} (e : Bytes) (h : e = [10] ∨ (v = .v12 ∧ e = [13, 10])) (t : Stream v r fs) : Stream v (e ++ r) fs
  | frame {inp r : Bytes} {f : Frame} {fs : List Frame} (h : decode v inp = some (f, r)) (t : Stream v r fs) : Stream v inp (f :: fs)

/-- Frames that mean the same to the library when it reads them: where headers are not escaped there is no backslash, and before 1.2 there is no CR. -/
def Readable (v : Ver) (f : Frame) : Prop :=
  ∀ e ∈ f.header, ∀ s, s = e.1 ∨ s = e.2 → (v ≠ .v12 → (13 : UInt8) ∉ s) ∧ (exempt v f.command = true → (92 : UInt8) ∉ s)

/-- Frames the library writes as the specification wants it: where headers are not escaped there is nothing to be escaped, and before 1.2 there is no CR. -/
def Writable (v : Ver) (f : Frame) : Prop :=
  ∀ e ∈ f.header, ∀ s, s = e.1 ∨ s = e.2 →
    (v ≠ .v12 → (13 : UInt8) ∉ s) ∧ (exempt v f.command = true → (92 : UInt8) ∉ s ∧ (13 : UInt8) ∉ s ∧ (10 : UInt8) ∉ s ∧ (58 : UInt8) ∉ s)

end Stomp.Std
