import Verif.Spec.FloatFormat
/-!
# Boxes of space, as sets of points with rational coordinates
-/
namespace Verif.Spec.Region
open Verif.Spec.IeeeArith Verif.Spec.FloatFormat

/-- The coordinates are finite and have these values. -/
def Values (v : Fin 3 → Number) (V : Fin 3 → ℚ) : Prop := ∀ i, value (v i) = some (V i)

/-- The point `p` is in the box with center `c` that extends by `e` in both directions of each axis. -/
def Inside (c e p : Fin 3 → ℚ) : Prop := ∀ i, c i - e i ≤ p i ∧ p i ≤ c i + e i

/-- The box has a point. -/
def NonEmpty (e : Fin 3 → ℚ) : Prop := ∀ i, 0 ≤ e i

/-- The boxes have a point in common. -/
def Meet (c e c' e' : Fin 3 → ℚ) : Prop := ∃ p, Inside c e p ∧ Inside c' e' p

/-- The rounding error of the corners of a box, along each axis. -/
def margin (f : Format) (c e : Fin 3 → ℚ) : Fin 3 → ℚ := fun i => f.u * (|c i| + e i)

/-- `p` is between `m` and `M` along each axis. -/
def Between (m M p : Fin 3 → ℚ) : Prop := ∀ i, m i ≤ p i ∧ p i ≤ M i

end Verif.Spec.Region
