import Verif.Spec.TriangleRounding
/-!
# Barycentric coordinates and points inside triangles: how much rounding can hide

`R` bounds the coordinates of the corners and of the point.
-/
namespace Verif.Spec.Weights
open Verif.Spec.IeeeArith Verif.Spec.FloatFormat Verif.Spec.TriangleRounding

/-- The dot product. -/
def scalar (X Y : Fin 3 → ℚ) : ℚ := ∑ i, X i * Y i

/-- The square of twice the triangle's area; zero if the corners are on a line. -/
def gram (A B C : Fin 3 → ℚ) : ℚ := scalar (B - A) (B - A) * scalar (C - A) (C - A) - scalar (B - A) (C - A) ^ 2

/-- `P` is above (or below, or at) the point of the triangle's plane that has the weights `1 - U - W`, `U` and `W`. -/
def Above (A B C P : Fin 3 → ℚ) (U W : ℚ) : Prop :=
  scalar (P - weighted A B C U W) (B - A) = 0 ∧ scalar (P - weighted A B C U W) (C - A) = 0

/-- What rounding can change of `gram`, and of the numerators of the weights. -/
def gramSlack (f : Format) (R : ℚ) : ℚ := ((1 + f.u) ^ 12 - 1) * (288 * R ^ 4) + (1 + f.u) ^ 12 * (600 * (R + 1) ^ 3 * f.tiny)

/-- The largest that those can be as computed. -/
def gramMost (f : Format) (R : ℚ) : ℚ := (1 + f.u) ^ 12 * (288 * R ^ 4 + 600 * (R + 1) ^ 3 * f.tiny)

/-- How far off the weight that is found as `Y` can be, times `gram`. -/
def weightSlack (f : Format) (R Y : ℚ) : ℚ := |Y| * gramSlack f R + divisionSlack f (gramMost f R) (gramMost f R) + gramSlack f R

/-- What rounding can change of a product of two weights, times `gram`. -/
def sideSlack (f : Format) (R : ℚ) : ℚ := ((1 + f.u) ^ 11 - 1) * (192 * R ^ 4) + (1 + f.u) ^ 11 * (400 * (R + 1) ^ 3 * f.tiny)

/-- The sums of products do not overflow. -/
def InRange (f : Format) (R : ℚ) : Prop := (1 + f.u) ^ 12 * (900 * (R + 1) ^ 4) ≤ f.greatest

end Verif.Spec.Weights
