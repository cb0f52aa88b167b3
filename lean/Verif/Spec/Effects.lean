import Verif.Spec.Session
/-!
# Specification: which frames of a session take effect, and when

Independent of the sessions of `Spec/Session`: no state, only the positions of frames in the sequence.
-/
namespace Stomp.Server.Spec
open Stomp

/-- A frame that opens or ends the transaction `t`. -/
def boundary (t : Bytes) (f : Frame) : Prop :=
  (f.command = b!"BEGIN" ∨ f.command = b!"COMMIT" ∨ f.command = b!"ABORT") ∧ hdr f b!"transaction" = some t

/-- A frame that can be part of a transaction. -/
def operation (f : Frame) : Prop := f.command = b!"SEND" ∨ f.command = b!"ACK" ∨ f.command = b!"NACK"

/-- Frame number `i` takes effect with frame number `j`: with itself if it is not in a transaction; otherwise with the COMMIT of its transaction, if this is what follows next of BEGIN, COMMIT and
ABORT frames of the transaction. -/
def TakesEffect (h : List Frame) (i j : Nat) : Prop :=
  ∃ f, h[i]? = some f ∧ operation f ∧
    ((hdr f b!"transaction" = none ∧ j = i) ∨
     ∃ t g, hdr f b!"transaction" = some t ∧ i < j ∧ h[j]? = some g ∧ g.command = b!"COMMIT" ∧ hdr g b!"transaction" = some t ∧
       ∀ x y, i < x → x < j → h[x]? = some y → ¬boundary t y)

/-- The order: by the frame with which they take effect, and in the order in which they were sent if it is the same. -/
def Before (p q : Nat × Nat) : Prop := p.2 < q.2 ∨ p.2 = q.2 ∧ p.1 < q.1

/-- `ps` lists the frames that take effect, each with the frame with which it does, in order. -/
structure Effects (h : List Frame) (ps : List (Nat × Nat)) : Prop where
  mem : ∀ i j, (i, j) ∈ ps ↔ TakesEffect h i j
  order : ps.Pairwise Before

/-- The frames at these positions. -/
def pick (h : List Frame) (ps : List (Nat × Nat)) : List Frame := ps.filterMap fun p => h[p.1]?

end Stomp.Server.Spec
