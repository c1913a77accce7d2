import Verif.Spec.Weights
import Mathlib.Data.Real.Sqrt
/-!
# Normals of triangles: how much rounding can hide

`R` bounds the coordinates. `ρ` is how much rounding can change of the cross product of two edges, relative to its length.
-/
namespace Verif.Spec.NormalRounding
open Verif.Spec.IeeeArith Verif.Spec.FloatFormat Verif.Spec.TriangleRounding Verif.Spec.Weights

/-- The normal of the triangle's plane: the cross product of two edges, divided by its length, which is the root of `gram`. -/
noncomputable def unit (A B C : Fin 3 → ℚ) (i : Fin 3) : ℝ :=
  (![(B - A) 1 * (C - A) 2 - (B - A) 2 * (C - A) 1, (B - A) 2 * (C - A) 0 - (B - A) 0 * (C - A) 2, (B - A) 0 * (C - A) 1 - (B - A) 1 * (C - A) 0] i : ℚ) / √(gram A B C : ℝ)

/-- The signed distance of a point and the triangle's plane. -/
noncomputable def height (A B C P : Fin 3 → ℚ) : ℝ := ∑ i, ((P i - A i : ℚ) : ℝ) * unit A B C i

/-- What rounding can change of a component of the cross product. -/
def edgeSlack (f : Format) (R : ℚ) : ℚ := ((1 + f.u) ^ 4 - 1) * (8 * R ^ 2) + (1 + f.u) ^ 4 * (8 * (R + 1) * f.tiny)

/-- The triangle is not so thin that rounding can change more than the part `ρ` of the cross product, nor so small or large that the square of its length underflows or
overflows. -/
def Steady (f : Format) (R ρ : ℚ) (A B C : Fin 3 → ℚ) : Prop :=
  0 ≤ ρ ∧ ρ ≤ 1 / 32 ∧ edgeSlack f R ^ 2 ≤ ρ ^ 2 * gram A B C ∧ 2 * 2 ^ f.emin ≤ f.u * gram A B C ∧ (1 + f.u) ^ 4 * (2 * gram A B C) ≤ f.greatest

/-- How far off the components of the normal can be. -/
def normalSlack (f : Format) (ρ : ℚ) : ℚ := 40 * f.u + 10 * ρ + f.tiny

/-- How far off the height can be. -/
def heightSlack (f : Format) (R ρ : ℚ) : ℚ := 6 * R * normalSlack f ρ + (((1 + f.u) ^ 4 - 1) * (12 * R) + (1 + f.u) ^ 4 * (11 * f.tiny))

end Verif.Spec.NormalRounding
