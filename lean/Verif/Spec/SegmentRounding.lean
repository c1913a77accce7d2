import Verif.Spec.FloatFormat
import Mathlib.Analysis.Real.Sqrt
import Mathlib.Algebra.BigOperators.Fin
/-!
# Line segments: their points, and how much rounding can move them
-/
namespace Verif.Spec.SegmentRounding
open Verif.Spec.FloatFormat

/-- The point of the line through `A` and `B` at the fraction `s` of the way from `A` to `B`; on the segment if `s` is between zero and one. -/
def along (A B : Fin 3 → ℚ) (s : ℚ) : Fin 3 → ℚ := fun i => A i + s * (B i - A i)

/-- The squared length of the segment from `A` to `B`. -/
def squared (A B : Fin 3 → ℚ) : ℚ := (B 0 - A 0) ^ 2 + (B 1 - A 1) ^ 2 + (B 2 - A 2) ^ 2

/-- The distance of two points. -/
noncomputable def away (A B : Fin 3 → ℚ) : ℝ := √(squared A B : ℚ)

/-- The segment is neither so short that the square of its length underflows, nor are coordinates of at most `R` so large that a square overflows. -/
def Moderate (f : Format) (R : ℚ) (A B : Fin 3 → ℚ) : Prop :=
  4 * 2 ^ f.emin ≤ f.u * squared A B ∧ (1 + f.u) ^ 7 * (48 * (R + 1) ^ 2) ≤ f.greatest

/-- How far the point that is found can be from the segment, along an axis: five roundings, and underflow. -/
def offSlack (f : Format) (R : ℚ) (A B : Fin 3 → ℚ) (i : Fin 3) : ℚ :=
  ((1 + f.u) ^ 5 - 1) * (|A i| + |B i - A i|) + (1 + f.u) ^ 5 * (8 * (R + 1) ^ 2 * f.tiny)

/-- How much farther away than the closest point of the segment the point that is found can be. -/
def farSlack (f : Format) (R : ℚ) : ℚ := 24 * ((1 + f.u) ^ 7 - 1) * R + 48 * (R + 1) ^ 2 * f.tiny

end Verif.Spec.SegmentRounding
