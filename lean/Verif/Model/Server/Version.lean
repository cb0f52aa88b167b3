import Verif.Model.Server.Types
/-!
# Version negotiation on the server: `determineVersion` (`server/client/frame.go:37-80`)
-/
namespace Stomp.Server
open Stomp

/-- Go's string comparison `a <= b` (bytewise lexicographic). -/
def strLe : Bytes → Bytes → Bool
  | [], _ => true
  | _ :: _, [] => false
  | a :: as, b :: bs => if a < b then true else if b < a then false else strLe as bs

/-- Insertion into a sorted list. -/
def strInsert (x : Bytes) : List Bytes → List Bytes
  | [] => [x]
  | y :: ys => if strLe x y then x :: y :: ys else y :: strInsert x ys

/-- `sort.Strings`: any sorting algorithm gives the same result, as equal strings are indistinguishable. -/
def strSort : List Bytes → List Bytes
  | [] => []
  | x :: xs => strInsert x (strSort xs)

/-- The loop of `determineVersion` (`server/client/frame.go:54-66`). -/
def pickVersion : Option Bytes → List Bytes → Option Bytes
  | acc, [] => acc
  | acc, v :: vs =>
    if v = Client.V10 then pickVersion (some Client.V10) vs
    else if v = Client.V11 then pickVersion (some Client.V11) vs
    else if v = Client.V12 then pickVersion (some Client.V12) vs
    else pickVersion acc vs

/-- `determineVersion` (`server/client/frame.go:37-80`). -/
def determineVersion (f : Frame) : Except Err Bytes :=
  if f.command ≠ Cmd.connect ∧ f.command ≠ Cmd.stomp then .error .notConnectFrame
  else
    match f.header.contains Hdr.acceptVersion with
    | some av =>
      match pickVersion none (strSort (splitOn 44 av)) with
      | some v => .ok v
      | none => .error .unknownVersion
    | none =>
      if f.command = Cmd.connect then .ok Client.V10
      else .error (.missingHeader Hdr.acceptVersion)

end Stomp.Server
