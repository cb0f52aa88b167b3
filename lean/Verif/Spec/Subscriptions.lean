import Verif.Spec.Session
/-!
# Specification of the subscriptions a client has

Independent of the server model: a SUBSCRIBE frame opens a subscription, an UNSUBSCRIBE frame with its id closes it.
-/
namespace Stomp.Server.Spec
open Stomp

/-- The id and the destination of a SUBSCRIBE frame. -/
def opens (f : Frame) : Option (Bytes × Bytes) :=
  if f.command = b!"SUBSCRIBE" then
    match hdr f b!"id", hdr f b!"destination" with
    | some i, some d => some (i, d)
    | _, _ => none
  else none

/-- The id of an UNSUBSCRIBE frame. -/
def closes (f : Frame) : Option Bytes := if f.command = b!"UNSUBSCRIBE" then hdr f b!"id" else none

/-- The subscriptions (id, destination) open after one more frame. -/
def openStep (l : List (Bytes × Bytes)) (f : Frame) : List (Bytes × Bytes) :=
  match opens f, closes f with
  | some s, _ => l ++ [s]
  | _, some i => l.filter (fun s => decide (s.1 ≠ i))
  | _, _ => l

/-- The subscriptions open after these frames, oldest first. -/
def openSubs (fs : List Frame) : List (Bytes × Bytes) := fs.foldl openStep []

/-- All ids asked for in these frames. -/
def idsAsked (fs : List Frame) : List Bytes := (fs.filterMap opens).map (·.1)

end Stomp.Server.Spec
