import Verif.Spec.RayRounding
import Mathlib.Algebra.BigOperators.Fin
/-!
# Triangles: how much rounding can hide

`R` bounds the coordinates of the corners and of the ray's origin, `S` the components of the ray's direction.
-/
namespace Verif.Spec.TriangleRounding
open Verif.Spec.IeeeArith Verif.Spec.FloatFormat

/-- No coordinate is larger than `R`. -/
def Within (R : ℚ) (X : Fin 3 → ℚ) : Prop := ∀ i, |X i| ≤ R

/-- The square of the distance of two points. -/
def squared (X Y : Fin 3 → ℚ) : ℚ := ∑ i, (Y i - X i) ^ 2

/-- The square of a distance is neither so small that it underflows nor so large that it overflows. -/
def Moderate (f : Format) (q : ℚ) : Prop := 4 * 2 ^ f.emin ≤ f.u * q ∧ (1 + f.u) ^ 6 * q ≤ f.greatest

/-- The determinant of three vectors. -/
def triple (X Y Z : Fin 3 → ℚ) : ℚ := X 0 * (Y 1 * Z 2 - Y 2 * Z 1) + X 1 * (Y 2 * Z 0 - Y 0 * Z 2) + X 2 * (Y 0 * Z 1 - Y 1 * Z 0)

/-- Twice the area of the triangle as it is seen in the direction `V` (times the length of `V`), with a sign; zero if the ray is parallel to the triangle. -/
def seen (A B C V : Fin 3 → ℚ) : ℚ := triple (B - A) V (C - A)

/-- The point of the triangle's plane that has the weights `1 - U - W`, `U` and `W`. -/
def weighted (A B C : Fin 3 → ℚ) (U W : ℚ) : Fin 3 → ℚ := fun i => A i + U * (B i - A i) + W * (C i - A i)

/-- What rounding can change of `seen`, and of the determinants that the weights come from. -/
def seenSlack (f : Format) (R S : ℚ) : ℚ := ((1 + f.u) ^ 7 - 1) * (24 * R ^ 2 * S) + (1 + f.u) ^ 7 * (24 * (R + 1) * (S + 1) * f.tiny)

/-- The largest that those can be as computed. -/
def seenMost (f : Format) (R S : ℚ) : ℚ := (1 + f.u) ^ 7 * (24 * R ^ 2 * S + 24 * (R + 1) * (S + 1) * f.tiny)

/-- What rounding can change of the determinant that the distance comes from. -/
def depthSlack (f : Format) (R : ℚ) : ℚ := ((1 + f.u) ^ 8 - 1) * (48 * R ^ 3) + (1 + f.u) ^ 8 * (72 * (R + 1) ^ 2 * f.tiny)

/-- The largest that it can be as computed. -/
def depthMost (f : Format) (R : ℚ) : ℚ := (1 + f.u) ^ 8 * (48 * R ^ 3 + 72 * (R + 1) ^ 2 * f.tiny)

/-- The error of a division by a number of magnitude at most `Q`, done as a multiplication by the reciprocal, times that number; `L` is the magnitude of the numerator. -/
def divisionSlack (f : Format) (Q L : ℚ) : ℚ := ((1 + f.u) * (1 + f.u + f.tiny * Q) - 1) * L + f.tiny * Q

/-- How far the point of the ray at the distance `T` that is found can be off the triangle, times `seen`. -/
def hitSlack (f : Format) (R S T : ℚ) : ℚ :=
  4 * R * (4 * seenSlack f R S + divisionSlack f (seenMost f R S) (seenMost f R S)) +
    S * (|T| * seenSlack f R S + divisionSlack f (seenMost f R S) (depthMost f R) + depthSlack f R)

/-- How far inside the triangle, by each of the three weights times `seen`, is clearly inside. -/
def margin (f : Format) (R S : ℚ) : ℚ := 3 * seenSlack f R S + 2 * divisionSlack f (seenMost f R S) (seenMost f R S)

/-- Nothing overflows, if what is smaller than `E` is not divided by. -/
def HitInRange (f : Format) (R S E : ℚ) : Prop := (1 + f.u) ^ 11 * (144 * (R + 1) ^ 3 * (S + 1)) * (1 / E + 2) ≤ f.greatest

end Verif.Spec.TriangleRounding
