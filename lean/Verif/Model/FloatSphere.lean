import Verif.Model.FloatLength
import Verif.Model.FloatBox
import Mathlib.Data.Fin.VecNotation
/-!
# Bounding spheres of floating-point numbers

`/repo/include/muu/bounding_sphere.h` for `float` and `double` (and any type that is an IEEE 754 format and not promoted), each language
operation rounded once. `c` is the contraction that the compiler has chosen for the squared length in distance_squared.
-/
namespace Verif.Model.FloatSphere
open Verif.Spec.IeeeArith Verif.Spec.FloatFormat Verif.Model.VectorStore Verif.Model.FloatVector

/-- bounding_sphere, impl/geometry_common.h:450-456: its members. -/
structure Sphere where
  center : Store Number 3
  radius : Number

/-- contains(point), bounding_sphere.h:458-470. -/
def contains (f : Format) (c : Store Bool 3) (s : Sphere) (p : Store Number 3) : Option Bool :=
  (FloatLength.distanceSquared f c s.center p).map fun d => FloatBox.atMost d (Op.mul.eval f s.radius s.radius)

/-- The loop of contains(begin, end), bounding_sphere.h:483-487. -/
def everyPoint (f : Format) (c : Store Bool 3) (s : Sphere) : List (Store Number 3) → Option Bool
  | [] => some true
  | p :: ps => do
    if !(← contains f c s p) then some false else everyPoint f c s ps

/-- contains(begin, end), bounding_sphere.h:472-488. -/
def containsAll (f : Format) (c : Store Bool 3) (s : Sphere) (ps : List (Store Number 3)) : Option Bool :=
  if ps.isEmpty then some false else everyPoint f c s ps

/-- contains(start, end), bounding_sphere.h:494-501; of a line_segment, impl/bounding_sphere_x_line_segment.h. -/
def containsSegment (f : Format) (c : Store Bool 3) (s : Sphere) (p q : Store Number 3) : Option Bool := do
  if ← contains f c s p then contains f c s q else some false

/-- contains(p0, p1, p2), bounding_sphere.h:523-531; of a triangle, impl/bounding_sphere_x_triangle.h. -/
def containsTriangle (f : Format) (c : Store Bool 3) (s : Sphere) (p0 p1 p2 : Store Number 3) : Option Bool := do
  if ← contains f c s p0 then (if ← contains f c s p1 then contains f c s p2 else some false) else some false

/-- The components of a vector by number, vector.h: operator[]. -/
def components : Store Number 3 → FloatBox.Vec
  | .three x y z => ![x, y, z]

/-- intersects of a box and a sphere, impl/bounding_box_x_bounding_sphere.h:44-50 and 94-100: aabbs_common::intersects_sphere, geometry_common.h:870-881, with
intersects_sphere_min_max_radsq (860-868). The corners are those of FloatBox.closestPoint. -/
def intersectsBox (f : Format) (k : Store Bool 3) (b : FloatBox.Box) (s : Sphere) : Option Bool :=
  let q := FloatBox.closestPoint f b (components s.center)
  (FloatLength.distanceSquared f k (.three (q 0) (q 1) (q 2)) s.center).map fun d => FloatBox.atMost d (Op.mul.eval f s.radius s.radius)

end Verif.Model.FloatSphere
