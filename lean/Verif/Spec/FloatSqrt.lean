import Verif.Spec.FloatFormat
import Mathlib.Data.Nat.Sqrt
/-!
# Square roots (IEEE 754-2008, 5.4.1)
-/
namespace Verif.Spec.FloatSqrt
open Verif.Spec.IeeeArith Verif.Spec.FloatFormat

/-- The integer nearest to the square root of `N`, the even one of two: `k` is the integer part of the root. -/
def rootUnits (N : ℚ) : ℕ :=
  let k := Nat.sqrt ⌊N⌋₊
  if N < (k + 1 / 2) ^ 2 then k else if (k + 1 / 2) ^ 2 < N then k + 1 else if k % 2 = 0 then k else k + 1

/-- The square root of a positive number, rounded to `p` significant bits: `q` is less than four times the square of `2 ^ (Int.log 2 q / 2)`. -/
def root (p : ℕ) (q : ℚ) : ℚ :=
  let t : ℚ := 2 ^ (Int.log 2 q / 2 - p + 1)
  rootUnits (q / t ^ 2) * t

/-- `std::sqrt`. (Roots of the numbers of a format are far from its limits.) -/
def sqrt (f : Format) : Number → Number
  | .nan => .nan
  | .inf s => if s then .nan else .inf false
  | .fin s q => if q = 0 then .fin s 0 else if signed s q < 0 then .nan else .fin false (root f.p (signed s q))

/-- The formats of hardware: precision, and a range that is about as large on both sides. -/
structure Usual (f : Format) : Prop where
  bits : 3 ≤ f.p
  least : f.emin ≤ -f.p - 1
  wide : 2 ^ (-f.emin) ≤ f.greatest
  narrow : 4 * f.greatest ≤ 2 ^ (-2 * f.emin)

end Verif.Spec.FloatSqrt
