import Verif.Spec.Geometry

/-!
# Specification: two triangles

Triangles are the convex hulls of their corners (`Spec/Geometry.lean`).
-/

namespace Verif.Spec.Triangles

open Matrix Verif.Spec.Geometry

/-- Six times the signed volume of the tetrahedron over the triangle `p0 p1 p2` with apex `x`: twice the area of the triangle
times the signed distance of `x` from its plane. -/
def tetra (p0 p1 p2 x : Point) : ℝ := crossProduct (p1 - p0) (p2 - p0) ⬝ᵥ (x - p0)

/-- Every corner of the triangle `q0 q1 q2` is either in the plane of the triangle `p0 p1 p2`, or so far from it that the
volume of the tetrahedron is not below the tolerance. -/
def Clear (epsilon : ℝ) (p0 p1 p2 q0 q1 q2 : Point) : Prop :=
  ∀ q ∈ ({q0, q1, q2} : Set Point), tetra p0 p1 p2 q = 0 ∨ epsilon ≤ |tetra p0 p1 p2 q|

/-- All corners of the triangle `q0 q1 q2` lie in the plane of the triangle `p0 p1 p2`. -/
def Coplanar (p0 p1 p2 q0 q1 q2 : Point) : Prop := ∀ q ∈ ({q0, q1, q2} : Set Point), q ∈ triPlane p0 p1 p2

end Verif.Spec.Triangles
