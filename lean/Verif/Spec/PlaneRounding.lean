import Verif.Spec.FloatFormat
import Mathlib.Algebra.BigOperators.Fin
/-!
# Planes: how far a point is off, and how much rounding can hide
-/
namespace Verif.Spec.PlaneRounding
open Verif.Spec.FloatFormat

/-- The side of the plane `N · x + D = 0` the point is on, and how far it is off: the signed distance, if `N` has unit length. -/
def offset (N : Fin 3 → ℚ) (D : ℚ) (P : Fin 3 → ℚ) : ℚ := ∑ i, N i * P i + D

/-- The sum of the magnitudes of the terms of the offset. -/
def bulk (N : Fin 3 → ℚ) (D : ℚ) (P : Fin 3 → ℚ) : ℚ := ∑ i, |N i * P i| + |D|

/-- What four roundings can change of the offset. -/
def slack (f : Format) (N : Fin 3 → ℚ) (D : ℚ) (P : Fin 3 → ℚ) : ℚ := ((1 + f.u) ^ 4 - 1) * bulk N D P + (1 + f.u) ^ 4 * (4 * f.tiny)

/-- Nothing overflows when the offset is computed. -/
def InRange (f : Format) (N : Fin 3 → ℚ) (D : ℚ) (P : Fin 3 → ℚ) : Prop := (1 + f.u) ^ 4 * (bulk N D P + 4 * f.tiny) ≤ f.greatest

/-- `X` is a point of the box with this center and these extents. -/
def InBox (C E X : Fin 3 → ℚ) : Prop := ∀ i, |X i - C i| ≤ E i

/-- How far the box with these extents reaches towards the plane. -/
def reach (E N : Fin 3 → ℚ) : ℚ := ∑ i, |E i * N i|

/-- What three roundings can change of the reach of a box. -/
def reachSlack (f : Format) (E N : Fin 3 → ℚ) : ℚ := ((1 + f.u) ^ 3 - 1) * reach E N + (1 + f.u) ^ 3 * (3 * f.tiny)

end Verif.Spec.PlaneRounding
