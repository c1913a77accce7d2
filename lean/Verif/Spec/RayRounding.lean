import Verif.Spec.PlaneRounding
/-!
# Rays against planes and boxes: how much rounding can hide
-/
namespace Verif.Spec.RayRounding
open Verif.Spec.IeeeArith Verif.Spec.FloatFormat Verif.Spec.PlaneRounding

/-- Neither NaN nor negative. -/
def Forward (t : Number) : Prop := t = .inf false ∨ ∃ T, value t = some T ∧ 0 ≤ T

/-- The point of the ray from `P` towards `V` at the distance `T`. -/
def point (P V : Fin 3 → ℚ) (T : ℚ) : Fin 3 → ℚ := fun i => P i + T * V i

/-- How far the point that is found on a plane, at the distance `T`, can be off: what the two dot products can hide, and the division. -/
def planeSlack (f : Format) (N : Fin 3 → ℚ) (D : ℚ) (P V : Fin 3 → ℚ) (T : ℚ) : ℚ :=
  slack f N D P + T * slack f N 0 V + f.u * (|offset N D P| + slack f N D P) + f.tiny * (|offset N 0 V| + slack f N 0 V)

/-- What three roundings can change of the distance of the ray's origin to a face of the box, in the direction of one axis. -/
def faceSlack (f : Format) (C E P V : Fin 3 → ℚ) (i : Fin 3) : ℚ :=
  ((1 + f.u) ^ 3 - 1) * (|C i| + |E i| + |P i|) + (1 + f.u) ^ 3 * (2 * f.tiny + |V i| * f.tiny)

/-- Nothing overflows in the direction of that axis: neither the distances to the faces, nor their quotients by the direction. -/
def FaceInRange (f : Format) (C E P V : Fin 3 → ℚ) (i : Fin 3) : Prop :=
  (1 + f.u) ^ 2 * (|C i| + |E i| + |P i| + 2 * f.tiny) ≤ f.greatest ∧
    (V i ≠ 0 → (1 + f.u) ^ 3 * ((|C i| + |E i| + |P i|) / |V i| + (2 * f.tiny / |V i| + f.tiny)) ≤ f.greatest)

/-- `X` is in the box made larger by `margin`, or smaller if that is negative. -/
def InBoxBy (C E margin X : Fin 3 → ℚ) : Prop := ∀ i, |X i - C i| ≤ E i + margin i

end Verif.Spec.RayRounding
