import Verif.Model.Bytes
/-!
# Specification of headers and frames as independent values

An ordered multimap is a list of (key, value) pairs. A store holds headers and frames *by value*: an
operation on one object changes that object only. This file does not refer to the implementation model.
-/
namespace Stomp.Spec

abbrev Multimap := List (Bytes × Bytes)

/-- All values of a key, in order. -/
def mmAll (m : Multimap) (k : Bytes) : List Bytes := (m.filter (fun e => e.1 = k)).map (·.2)

/-- First value of a key. -/
def mmFirst (m : Multimap) (k : Bytes) : Option Bytes := (mmAll m k).head?

/-- Remove all entries of a key. -/
def mmRemove (m : Multimap) (k : Bytes) : Multimap := m.filter (fun e => e.1 ≠ k)

/-- Replace the value of the first entry of a key; append an entry if there is none. -/
def mmPut (m : Multimap) (k v : Bytes) : Multimap :=
  match m.findIdx? (fun e => e.1 = k) with
  | some i => m.set i (k, v)
  | none => m ++ [(k, v)]

/-- Pair up a flat list of strings, padding with the empty string. -/
def pairUp : List Bytes → Multimap
  | [] => []
  | [k] => [(k, [])]
  | k :: v :: rest => (k, v) :: pairUp rest

/-- A frame by value; its header is named by number. -/
structure FrameVal where
  command : Bytes
  hdr : Nat
  body : Option Bytes
  deriving DecidableEq, Repr

structure Store where
  hdrs : List Multimap
  frames : List FrameVal
  deriving DecidableEq, Repr

/-- The operations a program can perform. -/
inductive StoreOp
  | newHeader (entries : List Bytes)
  | add (h : Nat) (k v : Bytes)
  | set (h : Nat) (k v : Bytes)
  | del (h : Nat) (k : Bytes)
  | addHeader (h h' : Nat)
  | clone (h : Nat)
  | newFrame (cmd : Bytes) (entries : List Bytes)
  | cloneFrame (f : Nat)
  | setCommand (f : Nat) (cmd : Bytes)
  | setBody (f : Nat) (b : Bytes)
  | pokeBody (f p : Nat) (x : UInt8)

/-- Whether the operation names existing objects (and avoids the documented panics). -/
def Store.legal (s : Store) : StoreOp → Prop
  | .newHeader _ => True
  | .add h _ _ | .set h _ _ | .del h _ | .clone h => h < s.hdrs.length
  | .addHeader h h' => h < s.hdrs.length ∧ h' < s.hdrs.length ∧ h ≠ h'
  | .newFrame _ es => es.length % 2 = 0
  | .cloneFrame f | .setCommand f _ | .setBody f _ => f < s.frames.length
  | .pokeBody f p _ => p < ((s.frames[f]?.bind (·.body)).getD []).length

instance (s : Store) (op : StoreOp) : Decidable (s.legal op) := by
  cases op <;> unfold Store.legal <;> infer_instance

/-- Effect by value. -/
def Store.apply (s : Store) : StoreOp → Store
  | .newHeader es => { s with hdrs := s.hdrs ++ [pairUp es] }
  | .add h k v => { s with hdrs := s.hdrs.modify h (· ++ [(k, v)]) }
  | .set h k v => { s with hdrs := s.hdrs.modify h (mmPut · k v) }
  | .del h k => { s with hdrs := s.hdrs.modify h (mmRemove · k) }
  | .addHeader h h' => { s with hdrs := s.hdrs.modify h (· ++ s.hdrs.getD h' []) }
  | .clone h => { s with hdrs := s.hdrs ++ [s.hdrs.getD h []] }
  | .newFrame c es =>
    { hdrs := s.hdrs ++ [pairUp es], frames := s.frames ++ [⟨c, s.hdrs.length, none⟩] }
  | .cloneFrame f =>
    match s.frames[f]? with
    | none => s
    | some v =>
      { hdrs := s.hdrs ++ [s.hdrs.getD v.hdr []],
        frames := s.frames ++ [⟨v.command, s.hdrs.length, v.body⟩] }
  | .setCommand f c => { s with frames := s.frames.modify f ({ · with command := c }) }
  | .setBody f b => { s with frames := s.frames.modify f ({ · with body := some b }) }
  | .pokeBody f p x => { s with frames := s.frames.modify f (fun v => { v with body := v.body.map (·.set p x) }) }

end Stomp.Spec
