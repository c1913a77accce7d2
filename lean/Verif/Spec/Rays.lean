import Verif.Spec.Geometry
import Mathlib.Order.Bounds.Basic

/-!
# Specification of ray casts
-/

namespace Verif.Spec.Rays

open Verif.Spec.Geometry

/-- The parameters at which the line through `o` with direction `d` is in `X`. -/
def along (o d : Point) (X : Set Point) : Set ℝ := {t | o + t • d ∈ X}

/-- What a ray cast should answer.  Without a hit, the ray has no point in `X`.  A hit is a point of the ray in `X`: the one
where the line enters `X`, or, when the line has entered `X` before the ray's origin, the one where it leaves `X`. -/
def Cast (o d : Point) (X : Set Point) (hit : Option ℝ) : Prop :=
  (hit = none → ∀ t, 0 ≤ t → t ∉ along o d X) ∧
  ∀ t, hit = some t → 0 ≤ t ∧ t ∈ along o d X ∧ (IsLeast (along o d X) t ∨ (∃ s ∈ along o d X, s < 0) ∧ IsGreatest (along o d X) t)

end Verif.Spec.Rays
