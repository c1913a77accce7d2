import Verif.Model.Boxes

/-!
# Model of oriented bounding boxes
(`include/muu/oriented_bounding_box.h`, `impl/geometry_common.h` 915-967, `impl/oriented_bounding_box_x_*.h`,
`impl/bounding_box_x_oriented_bounding_box.h`)

Exact arithmetic over the real numbers; promotions to wider scalar types are not modelled.  The measures (sides, diagonal,
volume, `degenerate`) are those of `Model.Boxes`, computed from the extents by the same base class.
-/

namespace Verif.Model.Obb

open Verif.Model.Matrix Verif.Model.Vector Verif.Model.Transform Verif.Model.Geometry Verif.Model.Boxes

noncomputable section

/-- `storage_base<oriented_bounding_box>`: `geometry_common.h` 923-929. -/
structure Obb where
  center : Vec
  extents : Vec
  axes : Mat ℝ 3 3

/-- `axes.m[j]`, `axes.x_column()` and so on: column `j` of the axes. -/
def Obb.axis (b : Obb) (j : Fin 3) : Vec := fun i => b.axes i j

/-- `volume`: `oriented_bounding_box.h` 314-319, `geometry_common.h` 563-567. -/
def Obb.volume (b : Obb) : ℝ := b.extents 0 * b.extents 1 * b.extents 2 * 8

/-- `corner`: `oriented_bounding_box.h` 506-535, `geometry_common.h` 948-966. -/
def Obb.corner (b : Obb) (k : Corner) : Vec :=
  let offset := cornerOffset b.extents k
  fun i => b.center i + offset 0 * b.axis 0 i + offset 1 * b.axis 1 i + offset 2 * b.axis 2 i

/-- `min_corner`: `oriented_bounding_box.h` 537-549. -/
def Obb.minCorner (b : Obb) : Vec := b.corner ⟨false, false, false⟩

/-- `max_corner`: `oriented_bounding_box.h` 551-563. -/
def Obb.maxCorner (b : Obb) : Vec := b.corner ⟨true, true, true⟩

/-- `translate`: `oriented_bounding_box.h` 578-594. -/
def Obb.translate (b : Obb) (offset : Vec) : Obb := ⟨fun i => b.center i + offset i, b.extents, b.axes⟩

/-- `scale`: `oriented_bounding_box.h` 609-625. -/
def Obb.scale (b : Obb) (s : Vec) : Obb := ⟨b.center, fun i => b.extents i * s i, b.axes⟩

/-- `transform`: `oriented_bounding_box.h` 641-677.  When one of the three vectors is zero, normalizing it divides by zero and
the box has a NaN axis: no result. -/
def Obb.transform (b : Obb) (tx : Mat ℝ 4 4) : Option Obb :=
  let center := transformPosition44 tx b.center
  let side (j : Fin 3) : Vec := fun i => transformPosition44 tx (fun i => b.center i + b.axis j i * b.extents j) i - center i
  if side 0 = 0 ∨ side 1 = 0 ∨ side 2 = 0 then none
  else some ⟨center, fun j => (normalizeOut (side j)).2, ofCols fun j => (normalizeOut (side j)).1⟩

/-- `closest_point`: `oriented_bounding_box.h` 686-699. -/
def Obb.closestPoint (b : Obb) (p : Vec) : Vec :=
  let adj : Vec := fun i => p i - b.center i
  let t (j : Fin 3) : ℝ := sclamp (dot adj (b.axis j)) (-b.extents j) (b.extents j)
  fun i => b.center i + t 0 * b.axis 0 i + t 1 * b.axis 1 i + t 2 * b.axis 2 i

/-- `contains(point)`: `oriented_bounding_box.h` 712-728. -/
def Obb.contains (b : Obb) (p : Vec) : Bool :=
  let adj : Vec := fun i => p i - b.center i
  decide (|dot adj (b.axis 0)| ≤ b.extents 0) && decide (|dot adj (b.axis 1)| ≤ b.extents 1)
    && decide (|dot adj (b.axis 2)| ≤ b.extents 2)

/-- `contains(begin, end)`: `oriented_bounding_box.h` 730-746. -/
def Obb.containsAll (b : Obb) (pts : List Vec) : Bool := if pts = [] then false else pts.all b.contains

/-- `contains(segment)`: `oriented_bounding_box.h` 752-771, `impl/oriented_bounding_box_x_line_segment.h` 20-27. -/
def Obb.containsSegment (b : Obb) (p q : Vec) : Bool := b.contains p && b.contains q

/-- `contains(triangle)`: `oriented_bounding_box.h` 781-801, `impl/oriented_bounding_box_x_triangle.h` 20-26. -/
def Obb.containsTri (b : Obb) (p0 p1 p2 : Vec) : Bool := b.contains p0 && b.contains p1 && b.contains p2

/-- `intersects(triangle)`: `oriented_bounding_box.h` 803-828, `impl/oriented_bounding_box_x_triangle.h` 28-51. -/
def Obb.intersectsTri (b : Obb) (p0 p1 p2 : Vec) : Bool :=
  let w2l := transpose b.axes
  let loc (p : Vec) : Vec := mulVec w2l (fun i => p i - b.center i)
  intersectsTriMinMax (fun i => -b.extents i) b.extents (loc p0) (loc p1) (loc p2)

/-- `intersects(bounding_sphere)`: `impl/oriented_bounding_box_x_bounding_sphere.h` 20-43. -/
def Obb.intersectsSphere (b : Obb) (s : Sphere) : Bool :=
  decide (distanceSquared (b.closestPoint s.center) s.center ≤ s.radius * s.radius)

/-- The corners after `min` in the order of `bounding_box::contains` and `from_obb`:
`impl/bounding_box_x_oriented_bounding_box.h` 28-35, 43-48. -/
def containsOrder : List Corner :=
  [⟨true, false, false⟩, ⟨false, true, false⟩, ⟨true, true, false⟩, ⟨false, false, true⟩, ⟨true, false, true⟩,
    ⟨false, true, true⟩, ⟨true, true, true⟩]

/-- The corners after `min` in the order of the separating-axis tests: `oriented_bounding_box.h` 872-884,
`impl/bounding_box_x_oriented_bounding_box.h` 59-64, 82-87. -/
def satOrder : List Corner :=
  [⟨true, false, false⟩, ⟨true, true, false⟩, ⟨true, false, true⟩, ⟨false, true, false⟩, ⟨false, true, true⟩,
    ⟨false, false, true⟩, ⟨true, true, true⟩]

/-- `bounding_box::contains(obb)`: `impl/bounding_box_x_oriented_bounding_box.h` 21-36. -/
def boxContainsObb (b : Box) (o : Obb) : Bool :=
  b.contains o.minCorner && containsOrder.all fun k => b.contains (o.corner k)

/-- `bounding_box::from_obb`: `impl/bounding_box_x_oriented_bounding_box.h` 38-51. -/
def fromObb (o : Obb) : Box := fromRange (o.minCorner :: containsOrder.map o.corner)

/-- `bounding_box::intersects(obb)` and its mirror: `impl/bounding_box_x_oriented_bounding_box.h` 53-119. -/
def boxIntersectsObb (b : Box) (o : Obb) : Bool :=
  let corners := satOrder.map o.corner
  let testAabb (i : Fin 3) : Bool := (satOfIndex i o.minCorner corners).testRange (b.minCorner i) (b.maxCorner i)
  if testAabb 0 = false ∨ testAabb 1 = false ∨ testAabb 2 = false then false
  else
    let boxCorners := satOrder.map b.corner
    let testObb (i : Fin 3) : Bool :=
      (satOf (o.axis i) o.minCorner corners).testOther (satOf (o.axis i) b.minCorner boxCorners)
    if testObb 0 = false ∨ testObb 1 = false ∨ testObb 2 = false then false else true

/-- `intersects(bb1, bb2)`: `oriented_bounding_box.h` 867-912. -/
def Obb.intersectsObb (b1 b2 : Obb) : Bool :=
  let corners1 := satOrder.map b1.corner
  let corners2 := satOrder.map b2.corner
  [b1, b2].all fun b => (List.finRange 3).all fun i =>
    (satOf (b.axis i) b1.minCorner corners1).testOther (satOf (b.axis i) b2.minCorner corners2)

end

end Verif.Model.Obb
