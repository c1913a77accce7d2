import Mathlib.Data.Int.Log
import Mathlib.Algebra.Order.Field.Power
import Mathlib.Data.Rat.Floor
import Mathlib.Tactic.Linarith
import Mathlib.Tactic.Ring
import Mathlib.Tactic.FieldSimp
import Mathlib.Tactic.Positivity
import Mathlib.Tactic.NormNum
/-!
# Floating-point rounding

IEEE 754 `roundTiesToEven` to `p` significant bits (24 for `float`, 53 for `double`), with the exponent unbounded: it
is the result of an operation as long as that neither overflows nor is subnormal.
-/
namespace Verif.Spec.Float

/-- the nearest integer, the even one of two -/
def roundEven (q : ℚ) : ℤ :=
  let f := ⌊q⌋
  if q - f < 1 / 2 then f else if 1 / 2 < q - f then f + 1 else if f % 2 = 0 then f else f + 1

/-- the distance between neighbours with `p` significant bits in the binade of `q` -/
def ulp (p : ℕ) (q : ℚ) : ℚ := 2 ^ (Int.log 2 |q| - p + 1)

/-- the nearest number with `p` significant bits, the even one of two -/
def rnd (p : ℕ) (q : ℚ) : ℚ := if q = 0 then 0 else roundEven (q / ulp p q) * ulp p q

end Verif.Spec.Float
