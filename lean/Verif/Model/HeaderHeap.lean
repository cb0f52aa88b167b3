import Verif.Model.Bytes
/-!
# `frame.Header` and `frame.Frame` as heap objects

The representation-level model: `Header.slice` (`frame/header.go:53-55`) is a Go slice, that is a backing
array shared by reference plus a length; `append` writes in place when the capacity allows and otherwise
allocates a new array whose capacity is chosen by an arbitrary growth policy `g`. `none` results are Go
panics (index out of range) or, for `AddHeader` of a header to itself, non-termination.

Simplification: strings are immutable values; a nil slice is a zero-capacity array of its own.
-/
namespace Stomp.Heap

/-- A Go slice header: backing array, length (all slices here start at offset 0). -/
structure Slice where
  arr : Nat
  len : Nat
  deriving DecidableEq, Repr

/-- `frame.Frame` (`frame/frame.go:9-13`): header and body by reference. `body = none` is nil. -/
structure FrameObj where
  command : Bytes
  hdr : Nat
  body : Option Nat
  deriving DecidableEq, Repr

/-- `arrs`: string backing arrays (their list length is the capacity); `hdrs`: `Header` objects;
`bodies`: byte arrays; `frames`: `Frame` objects. Objects are named by index. -/
structure HHeap where
  arrs : List (List Bytes)
  hdrs : List Slice
  bodies : List Bytes
  frames : List FrameObj
  deriving DecidableEq, Repr

def HHeap.empty : HHeap := ⟨[], [], [], []⟩

/-- The elements visible through a slice. -/
def view (H : HHeap) (s : Slice) : List Bytes := (H.arrs.getD s.arr []).take s.len

/-- Write `xs` into an array starting at `i`. -/
def writeAt (a : List Bytes) (i : Nat) (xs : List Bytes) : List Bytes :=
  a.take i ++ xs ++ a.drop (i + xs.length)

/-- `append(h.slice, xs...)` assigned back to `h.slice`; `g cap needed` is the growth policy. -/
def appendTo (g : Nat → Nat → Nat) (H : HHeap) (i : Nat) (xs : List Bytes) : Option HHeap :=
  match H.hdrs[i]? with
  | none => none
  | some s =>
    let a := H.arrs.getD s.arr []
    let n := s.len + xs.length
    if n ≤ a.length then
      some { H with arrs := H.arrs.set s.arr (writeAt a s.len xs), hdrs := H.hdrs.set i ⟨s.arr, n⟩ }
    else
      let c := max n (g a.length n)
      let a' := a.take s.len ++ xs ++ List.replicate (c - n) []
      some { H with arrs := H.arrs ++ [a'], hdrs := H.hdrs.set i ⟨H.arrs.length, n⟩ }

/-- `(*Header).index` (`frame/header.go:179-186`) on the visible elements. -/
def index : List Bytes → Bytes → Option Nat
  | [], _ => none
  | [k], key => if k = key then some 0 else none
  | k :: _ :: rest, key => if k = key then some 0 else (index rest key).map (· + 2)

/-- `NewHeader` (`frame/header.go:61-68`): the new object is named by the old number of headers. -/
def newHeader (g : Nat → Nat → Nat) (H : HHeap) (entries : List Bytes) : Option HHeap :=
  let H1 : HHeap := { H with arrs := H.arrs ++ [[]], hdrs := H.hdrs ++ [⟨H.arrs.length, 0⟩] }
  match appendTo g H1 H.hdrs.length entries with
  | none => none
  | some H2 => if entries.length % 2 ≠ 0 then appendTo g H2 H.hdrs.length [[]] else some H2

/-- `(*Header).Add` (`frame/header.go:71-73`). -/
def add (g : Nat → Nat → Nat) (H : HHeap) (i : Nat) (k v : Bytes) : Option HHeap := appendTo g H i [k, v]

/-- `(*Header).Len` (`frame/header.go:146-148`). -/
def len (H : HHeap) (i : Nat) : Option Nat := H.hdrs[i]?.map (fun s => s.len / 2)

/-- `(*Header).GetAt` (`frame/header.go:119-122`); out of range panics. -/
def getAt (H : HHeap) (i idx : Nat) : Option (Bytes × Bytes) :=
  match H.hdrs[i]? with
  | none => none
  | some s =>
    match (view H s)[idx * 2]?, (view H s)[idx * 2 + 1]? with
    | some k, some v => some (k, v)
    | _, _ => none

/-- The loop of `(*Header).AddHeader` (`frame/header.go:76-83`): the bound `header.Len()` is re-evaluated in
every iteration. -/
def addHeaderLoop (g : Nat → Nat → Nat) : Nat → Nat → HHeap → Nat → Nat → Option HHeap
  | 0, _, _, _, _ => none
  | fuel + 1, k, H, i, j =>
    match len H j with
    | none => none
    | some n =>
      if k < n then
        match getAt H j k with
        | none => none
        | some (key, value) =>
          match add g H i key value with
          | none => none
          | some H' => addHeaderLoop g fuel (k + 1) H' i j
      else some H

/-- `(*Header).AddHeader` (`frame/header.go:76-83`) with enough fuel for the source's current length. -/
def addHeader (g : Nat → Nat → Nat) (H : HHeap) (i j : Nat) : Option HHeap :=
  match len H j with
  | none => none
  | some n => addHeaderLoop g (n + 1) 0 H i j

/-- `(*Header).Set` (`frame/header.go:88-94`): overwrites in place. -/
def set (g : Nat → Nat → Nat) (H : HHeap) (i : Nat) (key value : Bytes) : Option HHeap :=
  match H.hdrs[i]? with
  | none => none
  | some s =>
    match index (view H s) key with
    | some p =>
      if p + 1 < s.len then
        some { H with arrs := H.arrs.set s.arr (writeAt (H.arrs.getD s.arr []) (p + 1) [value]) }
      else none
    | none => appendTo g H i [key, value]

/-- `(*Header).Contains` (`frame/header.go:130-136`). Outer `none`: panic; inner `none`: `ok == false`. -/
def contains (H : HHeap) (i : Nat) (key : Bytes) : Option (Option Bytes) :=
  match H.hdrs[i]? with
  | none => none
  | some s =>
    match index (view H s) key with
    | none => some none
    | some p =>
      match (view H s)[p + 1]? with
      | none => none
      | some v => some (some v)

/-- The loop of `(*Header).GetAll` (`frame/header.go:106-114`) on the visible elements. -/
def getAllView : List Bytes → Bytes → Option (List Bytes)
  | [], _ => some []
  | [k], key => if k = key then none else some []
  | k :: v :: rest, key =>
    if k = key then (getAllView rest key).map (v :: ·) else getAllView rest key

/-- `(*Header).GetAll` (`frame/header.go:106-114`). -/
def getAll (H : HHeap) (i : Nat) (key : Bytes) : Option (List Bytes) :=
  match H.hdrs[i]? with
  | none => none
  | some s => getAllView (view H s) key

/-- One iteration of the body of `(*Header).Del` (`frame/header.go:140-142`):
`append(h.slice[:p], h.slice[p+2:]...)` fits in the capacity, so it moves elements in place. -/
def delAt (H : HHeap) (i : Nat) (p : Nat) : Option HHeap :=
  match H.hdrs[i]? with
  | none => none
  | some s =>
    if p + 2 ≤ s.len then
      some { H with
        arrs := H.arrs.set s.arr (writeAt (H.arrs.getD s.arr []) p ((view H s).drop (p + 2)))
        hdrs := H.hdrs.set i ⟨s.arr, s.len - 2⟩ }
    else none

/-- `(*Header).Del` (`frame/header.go:139-143`). -/
def delLoop : Nat → HHeap → Nat → Bytes → Option HHeap
  | 0, _, _, _ => none
  | fuel + 1, H, i, key =>
    match H.hdrs[i]? with
    | none => none
    | some s =>
      match index (view H s) key with
      | none => some H
      | some p =>
        match delAt H i p with
        | none => none
        | some H' => delLoop fuel H' i key

def del (H : HHeap) (i : Nat) (key : Bytes) : Option HHeap :=
  match H.hdrs[i]? with
  | none => none
  | some s => delLoop (s.len + 1) H i key

/-- `(*Header).Clone` (`frame/header.go:151-155`): a new array of capacity `len`. -/
def clone (H : HHeap) (i : Nat) : Option HHeap :=
  match H.hdrs[i]? with
  | none => none
  | some s =>
    some { H with arrs := H.arrs ++ [view H s], hdrs := H.hdrs ++ [⟨H.arrs.length, s.len⟩] }

/-- The loop of `frame.New` (`frame/frame.go:20-22`); an odd number of entries panics. -/
def newFrameLoop (g : Nat → Nat → Nat) : HHeap → Nat → List Bytes → Option HHeap
  | H, _, [] => some H
  | _, _, [_] => none
  | H, i, k :: v :: rest =>
    match add g H i k v with
    | none => none
    | some H' => newFrameLoop g H' i rest

/-- `frame.New` (`frame/frame.go:18-24`). -/
def newFrame (g : Nat → Nat → Nat) (H : HHeap) (cmd : Bytes) (entries : List Bytes) : Option HHeap :=
  let H1 : HHeap := { H with
    arrs := H.arrs ++ [[]], hdrs := H.hdrs ++ [⟨H.arrs.length, 0⟩],
    frames := H.frames ++ [⟨cmd, H.hdrs.length, none⟩] }
  newFrameLoop g H1 H.hdrs.length entries

/-- `(*Frame).Clone` (`frame/frame.go:28-38`): clones the header and copies the body. (The comment in the
source says the body is shared; the code copies it.) Simplification: `Frame.Header` is never nil here. -/
def cloneFrame (H : HHeap) (f : Nat) : Option HHeap :=
  match H.frames[f]? with
  | none => none
  | some o =>
    match clone H o.hdr with
    | none => none
    | some H1 =>
      match o.body with
      | none => some { H1 with frames := H1.frames ++ [⟨o.command, H.hdrs.length, none⟩] }
      | some b =>
        some { H1 with
          bodies := H1.bodies ++ [H1.bodies.getD b []]
          frames := H1.frames ++ [⟨o.command, H.hdrs.length, some H1.bodies.length⟩] }

/-- Application code: `f.Command = cmd`. -/
def setCommand (H : HHeap) (f : Nat) (cmd : Bytes) : Option HHeap :=
  match H.frames[f]? with
  | none => none
  | some o => some { H with frames := H.frames.set f { o with command := cmd } }

/-- Application code: `f.Body = ` a fresh byte slice. -/
def setBody (H : HHeap) (f : Nat) (b : Bytes) : Option HHeap :=
  match H.frames[f]? with
  | none => none
  | some o =>
    some { H with bodies := H.bodies ++ [b], frames := H.frames.set f { o with body := some H.bodies.length } }

/-- Application code: `f.Body[p] = x`. -/
def pokeBody (H : HHeap) (f p : Nat) (x : UInt8) : Option HHeap :=
  match H.frames[f]? with
  | none => none
  | some o =>
    match o.body with
    | none => none
    | some b =>
      if p < (H.bodies.getD b []).length then
        some { H with bodies := H.bodies.set b ((H.bodies.getD b []).set p x) }
      else none

/-- Operations of a program using headers and frames. Header operations of a frame use `frame.hdr`. -/
inductive Op
  | newHeader (entries : List Bytes)
  | add (h : Nat) (k v : Bytes)
  | set (h : Nat) (k v : Bytes)
  | del (h : Nat) (k : Bytes)
  | addHeader (h h' : Nat)
  | clone (h : Nat)
  | newFrame (cmd : Bytes) (entries : List Bytes)
  | cloneFrame (f : Nat)
  | setCommand (f : Nat) (cmd : Bytes)
  | setBody (f : Nat) (b : Bytes)
  | pokeBody (f p : Nat) (x : UInt8)
  deriving DecidableEq, Repr

def exec (g : Nat → Nat → Nat) (H : HHeap) : Op → Option HHeap
  | .newHeader es => newHeader g H es
  | .add h k v => add g H h k v
  | .set h k v => set g H h k v
  | .del h k => del H h k
  | .addHeader h h' => addHeader g H h h'
  | .clone h => clone H h
  | .newFrame c es => newFrame g H c es
  | .cloneFrame f => cloneFrame H f
  | .setCommand f c => setCommand H f c
  | .setBody f b => setBody H f b
  | .pokeBody f p x => pokeBody H f p x

/-- Run a program. -/
def run (g : Nat → Nat → Nat) : HHeap → List Op → Option HHeap
  | H, [] => some H
  | H, op :: ops =>
    match exec g H op with
    | none => none
    | some H' => run g H' ops

end Stomp.Heap
