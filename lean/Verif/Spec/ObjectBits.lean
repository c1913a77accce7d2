import Mathlib.Data.Int.Notation
import Mathlib.Data.Nat.Notation
/-! # Values of integral types and their bits -/
namespace Verif.Spec.ObjectBits

/-- The values that an integral type of `bits` bits has: two's complement, or without sign. -/
def Has (signed : Bool) (bits : ℕ) (z : ℤ) : Prop :=
  if signed then -(2 ^ bits : ℤ) ≤ 2 * z ∧ 2 * z < 2 ^ bits else 0 ≤ z ∧ z < 2 ^ bits

/-- The bits `n` are those of the value `z`: the number they make is congruent to it. -/
def Bits (bits : ℕ) (z : ℤ) (n : ℕ) : Prop := n < 2 ^ bits ∧ ∃ k : ℤ, z = n + k * 2 ^ bits

end Verif.Spec.ObjectBits
