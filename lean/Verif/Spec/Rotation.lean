import Mathlib.LinearAlgebra.CrossProduct
import Mathlib.Analysis.SpecialFunctions.Trigonometric.Basic

/-!
# Specification of rotations in space

Rodrigues' formula: the rotation of `r` about the unit vector `axis` by `angle`, counter-clockwise when the axis points
at the viewer.
-/

namespace Verif.Spec.Rotation

open Matrix

/-- `r` turned about `axis` by `angle`. -/
noncomputable def rotateAbout (axis : Fin 3 → ℝ) (angle : ℝ) (r : Fin 3 → ℝ) : Fin 3 → ℝ :=
  Real.cos angle • r + Real.sin angle • (axis ⨯₃ r) + ((1 - Real.cos angle) * (axis ⬝ᵥ r)) • axis

end Verif.Spec.Rotation
