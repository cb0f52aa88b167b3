import Verif.Model.Server.SubscriptionList
/-!
# `SubscriptionList` as it is written: loops over a linked list (`server/client/subscription_list.go`)

`Model/Server/SubscriptionList.lean` and `Model/Server/System.lean` take the lists of subscriptions as sequences. Here the functions are as in the source: a cursor
goes through a `list.List` whose elements are taken out on the way. Of `container/list` the documented behaviour is modelled: `Next` of an element that has been
removed is nil. A loop that has not ended after the given number of rounds is `none`.
-/
namespace Stomp.Server
open Stomp

/-- A `*list.List`: its elements (pointers) with their values, here pointers to subscriptions, from front to back; `fresh` is the next new element. -/
structure LList where
  elems : List (Nat × Nat) := []
  fresh : Nat := 0
  deriving DecidableEq, Repr

/-- The element after `e`; nil if it is the last or not in the list. -/
def nextIn : List (Nat × Nat) → Nat → Option Nat
  | [], _ => none
  | (a, _) :: t, e => if a = e then t.head?.map (·.1) else nextIn t e

/-- The value of an element of the list. -/
def valueIn : List (Nat × Nat) → Nat → Option Nat
  | [], _ => none
  | (a, v) :: t, e => if a = e then some v else valueIn t e

namespace LList
/-- `l.Front()` -/
def front (l : LList) : Option Nat := l.elems.head?.map (·.1)
/-- `e.Next()` -/
def next (l : LList) (e : Nat) : Option Nat := nextIn l.elems e
/-- `e.Value` -/
def value (l : LList) (e : Nat) : Option Nat := valueIn l.elems e
/-- `l.Remove(e)` -/
def remove (l : LList) (e : Nat) : LList := { l with elems := l.elems.filter (·.1 ≠ e) }
/-- `l.PushBack(v)` -/
def pushBack (l : LList) (v : Nat) : LList := { elems := l.elems ++ [(l.fresh, v)], fresh := l.fresh + 1 }
end LList

/-- A `SubscriptionList` (`server/client/subscription_list.go:8-12`) and the subscriptions it points to. -/
structure SList where
  heap : List Sub
  subs : LList := {}
  deriving DecidableEq, Repr

namespace SList

/-- `sub.subList = nil` or not nil. -/
def mark (s : SList) (i : Nat) (b : Bool) : SList := { s with heap := s.heap.modify i (fun x => { x with inList := b }) }

/-- `NewSubscriptionList` (`server/client/subscription_list.go:14-16`). -/
def new (heap : List Sub) : SList := { heap }

/-- `Add` (`server/client/subscription_list.go:22-28`); `none` is the panic. -/
def add (s : SList) (i : Nat) : Option SList :=
  if (deref s.heap i).inList then none
  else some (({ s with subs := s.subs.pushBack i } : SList).mark i true)

/-- `Get` (`server/client/subscription_list.go:33-42`). -/
def get (s : SList) : Option Nat × SList :=
  match s.subs.front with
  | none => (none, s)
  | some e =>
    match s.subs.value e with
    | none => (none, s)
    | some i => (some i, ({ s with subs := s.subs.remove e } : SList).mark i false)

/-- The loop of `Remove` (`server/client/subscription_list.go:46-52`) from the element `e`. -/
def removeFrom (s : SList) (i : Nat) : Nat → Option Nat → Option SList
  | _, none => some s
  | 0, some _ => none
  | n + 1, some e =>
    if s.subs.value e = some i then some (({ s with subs := s.subs.remove e } : SList).mark i false)
    else removeFrom s i n (s.subs.next e)

/-- The loop of `FindByIdAndRemove` (`server/client/subscription_list.go:58-65`) from the element `e`. -/
def findFrom (s : SList) (id : Bytes) : Nat → Option Nat → Option (Option Nat × SList)
  | _, none => some (none, s)
  | 0, some _ => none
  | n + 1, some e =>
    match s.subs.value e with
    | none => none
    | some i =>
      if (deref s.heap i).id = id then some (some i, { s with subs := s.subs.remove e })
      else findFrom s id n (s.subs.next e)

/-- The loop of `Ack` (`server/client/subscription_list.go:72-80`) from the element `e`: the list afterwards, the subscriptions the callback was called for, and whether
`IsAckedBy` panicked. -/
def ackFrom (s : SList) (msgId : Nat) : Nat → Option Nat → Option (SList × List Nat × Bool)
  | _, none => some (s, [], false)
  | 0, some _ => none
  | n + 1, some e =>
    let next := s.subs.next e
    match s.subs.value e with
    | none => none
    | some i =>
      match (deref s.heap i).isAckedBy msgId with
      | none => some (s, [], true)
      | some true => (ackFrom { s with subs := s.subs.remove e } msgId n next).map fun (s, l, p) => (s, i :: l, p)
      | some false => ackFrom s msgId n next

/-- The loop of `Nack` (`server/client/subscription_list.go:88-96`) from the element `e`. -/
def nackFrom (s : SList) (msgId : Nat) : Nat → Option Nat → Option (SList × List Nat)
  | _, none => some (s, [])
  | 0, some _ => none
  | n + 1, some e =>
    let next := s.subs.next e
    match s.subs.value e with
    | none => none
    | some i =>
      if (deref s.heap i).isNackedBy msgId then (nackFrom { s with subs := s.subs.remove e } msgId n next).map fun (s, l) => (s, i :: l)
      else nackFrom s msgId n next

/-- The loop of `ForEach` (`server/client/subscription_list.go:101-106`) from the element `e`: the calls of the callback. -/
def forEachFrom (s : SList) : Nat → Option Nat → Option (List (Nat × Bool))
  | _, none => some []
  | 0, some _ => none
  | n + 1, some e =>
    let next := s.subs.next e
    match s.subs.value e with
    | none => none
    | some i => (forEachFrom s n next).map fun l => (i, next.isNone) :: l

/-- The calls that change a list. -/
inductive Op
  | add (i : Nat)
  | get
  | remove (i : Nat)
  | find (id : Bytes)
  | ack (msgId : Nat)
  | nack (msgId : Nat)
  deriving DecidableEq, Repr

/-- A call: the list afterwards and the subscriptions handed out, to the caller or the callback, in order. `none`: the call panics, or its loop does not end within `n` rounds. -/
def step (n : Nat) (s : SList) : Op → Option (SList × List Nat)
  | .add i => (s.add i).map fun s => (s, [])
  | .get => some (s.get.2, s.get.1.toList)
  | .remove i => (s.removeFrom i n s.subs.front).map fun s => (s, [])
  | .find id => (s.findFrom id n s.subs.front).map fun (i, s) => (s, i.toList)
  | .ack k => (s.ackFrom k n s.subs.front).bind fun (s, l, p) => if p then none else some (s, l)
  | .nack k => s.nackFrom k n s.subs.front

/-- A sequence of calls, each with as many rounds as it needs: one for each element of the list. -/
def run (s : SList) : List Op → Option (SList × List (List Nat))
  | [] => some (s, [])
  | o :: os =>
    match s.step s.subs.elems.length o with
    | none => none
    | some (s', l) => (run s' os).map fun (s'', ls) => (s'', l :: ls)

end SList
end Stomp.Server
