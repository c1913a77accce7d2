import Verif.Model.FloatSphere
import Verif.Model.Boxes
/-!
# Oriented bounding boxes of floating-point numbers

`/repo/include/muu/oriented_bounding_box.h` and `impl/geometry_common.h` for `float` and `double` (and any type that is an IEEE 754 format and not promoted), each language operation
rounded once. Which products are contracted with the additions that take them is a parameter, also where compilers would have to see through the operators of vectors.
-/
namespace Verif.Model.FloatObb
open Verif.Spec.IeeeArith Verif.Spec.FloatFormat Verif.Model.VectorStore Verif.Model.FloatVector

/-- oriented_bounding_box, impl/geometry_common.h:923-929: its members. `axes j` is column `j`, which x_column, y_column, z_column and `m[j]` give. -/
structure Obb where
  center : Store Number 3
  extents : Store Number 3
  axes : Fin 3 → Store Number 3

/-- `abs(dot(adj, axis)) <= extent`, oriented_bounding_box.h:718-720, for one axis. -/
def within (f : Format) (k : Store Bool 3) (b : Obb) (adj : Store Number 3) (j : Fin 3) : Option Bool :=
  (dot f k adj (b.axes j)).map fun d => FloatBox.atMost (Kahan.abs d) (FloatSphere.components b.extents j)

/-- contains(point), oriented_bounding_box.h:712-728. -/
def contains (f : Format) (k : Fin 3 → Store Bool 3) (b : Obb) (p : Store Number 3) : Option Bool := do
  let adj ← binary .sub f p b.center
  if ← within f (k 0) b adj 0 then (if ← within f (k 1) b adj 1 then within f (k 2) b adj 2 else some false) else some false

/-- The loop of contains(begin, end), oriented_bounding_box.h:741-745. -/
def everyPoint (f : Format) (k : Fin 3 → Store Bool 3) (b : Obb) : List (Store Number 3) → Option Bool
  | [] => some true
  | p :: ps => do
    if !(← contains f k b p) then some false else everyPoint f k b ps

/-- contains(begin, end), oriented_bounding_box.h:730-746. -/
def containsAll (f : Format) (k : Fin 3 → Store Bool 3) (b : Obb) (ps : List (Store Number 3)) : Option Bool :=
  if ps.isEmpty then some false else everyPoint f k b ps

/-- contains(start, end), oriented_bounding_box.h:752-771; of a line_segment, impl/oriented_bounding_box_x_line_segment.h:20-27. -/
def containsSegment (f : Format) (k : Fin 3 → Store Bool 3) (b : Obb) (p q : Store Number 3) : Option Bool := do
  if ← contains f k b p then contains f k b q else some false

/-- contains(p0, p1, p2), oriented_bounding_box.h:781-801; of a triangle, impl/oriented_bounding_box_x_triangle.h:20-26. -/
def containsTriangle (f : Format) (k : Fin 3 → Store Bool 3) (b : Obb) (p0 p1 p2 : Store Number 3) : Option Bool := do
  if ← contains f k b p0 then (if ← contains f k b p1 then contains f k b p2 else some false) else some false

/-- `v + t * a` and `v += t * a`: vector.h:1421-1458 and 1614-1639. -/
def step (f : Format) : Store Bool 3 → Store Number 3 → Number → Store Number 3 → Store Number 3
  | .three k1 k2 k3, .three x y z, t, .three a b c =>
    .three (Op.add.eval f x (product f (a, t) k1)) (Op.add.eval f y (product f (b, t) k2)) (Op.add.eval f z (product f (c, t) k3))

/-- The centre, plus a multiple of each axis in turn. -/
def walk (f : Format) (k : Fin 3 → Store Bool 3) (b : Obb) (t : Fin 3 → Number) : Store Number 3 :=
  step f (k 2) (step f (k 1) (step f (k 0) b.center (t 0) (b.axes 0)) (t 1) (b.axes 1)) (t 2) (b.axes 2)

/-- closest_point, oriented_bounding_box.h:686-699. -/
def closestPoint (f : Format) (k l : Fin 3 → Store Bool 3) (b : Obb) (p : Store Number 3) : Option (Store Number 3) := do
  let adj ← binary .sub f p b.center
  let d0 ← dot f (k 0) adj (b.axes 0)
  let d1 ← dot f (k 1) adj (b.axes 1)
  let d2 ← dot f (k 2) adj (b.axes 2)
  let clamped (d : Number) (j : Fin 3) := CoreUtils.clamp (fun a b => Kahan.less a b) d (FloatSphere.components b.extents j).negate (FloatSphere.components b.extents j)
  some (walk f l b ![clamped d0 0, clamped d1 1, clamped d2 2])

/-- corner, impl/geometry_common.h:941-965, with corner_offset, 578-619; `up j` is whether the corner is at the upper end of axis `j` (box_corner::x is the one with only `up 0`). -/
def corner (f : Format) (l : Fin 3 → Store Bool 3) (b : Obb) (up : Fin 3 → Bool) : Store Number 3 :=
  walk f l b fun j => if up j then FloatSphere.components b.extents j else (FloatSphere.components b.extents j).negate

end Verif.Model.FloatObb
