import Verif.Spec.Geometry

/-!
# Specification of bounding: the smallest axis-aligned box around a set
-/

namespace Verif.Spec.Geometry

/-- `B` encloses `S`, and every axis-aligned box that encloses `S` encloses `B`. -/
def TightAround (B S : Set Point) : Prop := S ⊆ B ∧ ∀ l h : Point, S ⊆ Set.Icc l h → B ⊆ Set.Icc l h

end Verif.Spec.Geometry
