/-!
# What is used of float64: `time.Duration(float64(c.readTimeout) * c.hbGracePeriodMultiplier)` (`conn.go:318`)

A finite float64 is `± m * 2 ^ e` with `m < 2 ^ 53`. The conversion of an integer and the product are rounded to 53 bits, to nearest, ties to even (IEEE 754, as the Go specification demands), and the
conversion to an integer drops the fraction.

The exponents are not bounded here. This makes no difference to the duration: the factor is an integer below `2 ^ 63`, so a product too large for a float64 is too large for an int64, and where a product
loses bits because it is too small for a normal float64 it is far below 1 and becomes 0. Not modelled: infinities and NaN as multiplier.
-/
namespace Stomp

/-- A finite float64: `(-1) ^ neg * m * 2 ^ e`. Nothing here depends on `m < 2 ^ 53`, so it is not demanded. -/
structure F64 where
  neg : Bool
  m : Nat
  e : Int
  deriving DecidableEq, Repr

namespace F64

/-- 1.0 -/
def one : F64 := ⟨false, 1, 0⟩

/-- The number of bits that do not fit. -/
def excess (n : Nat) : Nat := if n < 2 ^ 53 then 0 else n.log2 - 52

/-- `n` rounded to a multiple of `2 ^ k`, to nearest, ties to even. -/
def roundAt (n k : Nat) : Nat :=
  if 2 ^ k < 2 * (n % 2 ^ k) ∨ (2 ^ k = 2 * (n % 2 ^ k) ∧ n / 2 ^ k % 2 = 1) then (n / 2 ^ k + 1) * 2 ^ k
  else n / 2 ^ k * 2 ^ k

/-- `n` rounded to 53 significant bits. -/
def round (n : Nat) : Nat := roundAt n (excess n)

/-- The integer part of `n * 2 ^ e`. -/
def scale (n : Nat) (e : Int) : Nat := if 0 ≤ e then n * 2 ^ e.toNat else n / 2 ^ (-e).toNat

/-- The absolute value of the integer part of `float64(d) * g`, for `d ≥ 0`. -/
def mulInt (g : F64) (d : Nat) : Nat := scale (round (round d * g.m)) g.e

end F64
end Stomp
