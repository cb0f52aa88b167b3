import Verif.Model.Memory
/-! # What a program may expect of the memory of its frames -/
namespace Stomp.Mem.Spec

/-- What the writes of the program to the body of result `j` of reader `i` make of a body `b`. Nothing else counts. -/
def written (i j : Nat) : List Op → Bytes → Bytes
  | [], b => b
  | .poke i' j' p x :: ops, b => written i j ops (if i' = i ∧ j' = j then b.set p x else b)
  | _ :: ops, b => written i j ops b

/-- The bytes of all arrays there are. -/
def total (m : Mem) : Nat := (m.map List.length).sum

/-- The bytes a reader has not consumed: those in its buffer and those its transport still has to deliver. -/
def unread (s : MBuf) : Nat := s.w - s.r + (s.chunks.map List.length).sum

end Stomp.Mem.Spec
