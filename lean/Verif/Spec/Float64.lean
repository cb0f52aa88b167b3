import Verif.Model.Float64
/-! # Specification: rounding to a float64 -/
namespace Stomp.Spec
open Stomp

/-- The natural numbers that are float64 values. -/
def Representable (n : Nat) : Prop := ∃ a j, a < 2 ^ 53 ∧ n = a * 2 ^ j

/-- The distance of two numbers. -/
def dist (a b : Nat) : Nat := (a - b) + (b - a)

/-- `r` is the float64 nearest to `n`, and of two that are equally near, the one with an even mantissa (the other one being a unit in the last place away). -/
def Nearest (n r : Nat) : Prop :=
  Representable r ∧ ∀ r', Representable r' → dist n r ≤ dist n r' ∧ (dist n r = dist n r' → r ≠ r' → 2 * dist r r' ∣ r)

/-- The value of a float64 that is not negative is `num / den`. -/
def num (g : F64) : Nat := g.m * 2 ^ g.e.toNat
def den (g : F64) : Nat := 2 ^ (-g.e).toNat

end Stomp.Spec
