import Mathlib.Analysis.SpecialFunctions.Sqrt
import Mathlib.Algebra.BigOperators.Fin

/-! # What shear is, for C145 -/

namespace Verif.Spec.Shear

/-- The cosine of the angle between two vectors is at least a thousandth, in absolute value (or one of them is zero): they are not
perpendicular. -/
def Skew {n : ℕ} (x y : Fin n → ℝ) : Prop := 1000 * |∑ i, x i * y i| ≥ √(∑ i, x i ^ 2) * √(∑ i, y i ^ 2)

end Verif.Spec.Shear
