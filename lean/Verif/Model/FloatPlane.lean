import Verif.Model.FloatProducts
import Verif.Model.Approx
import Verif.Model.FloatBox
/-!
# Planes of floating-point numbers

`/repo/include/muu/plane.h`, `impl/geometry_common.h:82-157` and `impl/bounding_box_x_plane.h` for `float` and `double` (and any type that is an IEEE 754 format and
not promoted), each language operation rounded once. `k`: the contraction that the compiler has chosen for the dot product. The sum of the dot product and `d` takes
no product.
-/
namespace Verif.Model.FloatPlane
open Verif.Spec.IeeeArith Verif.Spec.FloatFormat Verif.Model.VectorStore Verif.Model.FloatVector

/-- plane, plane.h:29-31, 68-74: its members. -/
structure Plane where
  normal : Store Number 3
  d : Number

/-- planes_common::d_term, geometry_common.h:94-98. -/
def dTerm (f : Format) (k : Store Bool 3) (pos dir : Store Number 3) : Option Number := (dot f k pos dir).map Number.negate

/-- plane(position, direction), plane.h:98-100. -/
def construct (f : Format) (k : Store Bool 3) (position direction : Store Number 3) : Option Plane := do
  some ⟨direction, ← dTerm f k position direction⟩

/-- planes_common::origin, geometry_common.h:88-92; origin, plane.h:390-400. -/
def origin (f : Format) (p : Plane) : Option (Store Number 3) := scale f p.normal p.d.negate

/-- planes_common::signed_distance, geometry_common.h:100-106; signed_distance, plane.h:332-343. -/
def signedDistance (f : Format) (k : Store Bool 3) (p : Plane) (point : Store Number 3) : Option Number := do
  some (Op.add.eval f (← dot f k p.normal point) p.d)

/-- planes_common::unsigned_distance, geometry_common.h:108-114; distance, plane.h:347-358. -/
def distance (f : Format) (k : Store Bool 3) (p : Plane) (point : Store Number 3) : Option Number :=
  (signedDistance f k p point).map Kahan.abs

/-- planes_common::project, geometry_common.h:116-132; project, plane.h:362-372. `c`: the products that are contracted with the subtractions. -/
def project (f : Format) (k c : Store Bool 3) (p : Plane) (point : Store Number 3) : Option (Store Number 3) := do
  let signed_dist ← signedDistance f k p point
  let products ← VectorStore.construct (fun n b => some (product f (n, signed_dist) b)) p.normal c
  VectorStore.construct (fun x y => some (f.round (Number.sub x y))) point products

/-- planes_common::contains_point, geometry_common.h:134-141, with approx_zero (math.h:536-546); contains, plane.h:445-458. `none`: the assumption about epsilon is
broken. -/
def contains (f : Format) (k : Store Bool 3) (p : Plane) (point : Store Number 3) (epsilon : Number) : Option Bool := do
  let x ← signedDistance f k p point
  if Approx.assumed epsilon then some (Approx.near f epsilon x (.fin false 0)) else none

/-- `signed_distance(p, point) >= scalar_type{}`, plane.h:414-419. -/
def side (f : Format) (p : Plane) (q : Store Bool 3 × Store Number 3) : Option Bool := do
  some (Kahan.atLeast (← signedDistance f q.1 p q.2) (.fin false 0))

/-- The fold of plane.h:418-419, from left to right. -/
def others (f : Format) (p : Plane) (p0_side : Bool) : List (Store Bool 3 × Store Number 3) → Option Bool
  | [] => some true
  | q :: qs => do
    if p0_side == (← side f p q) then others f p p0_side qs else some false

/-- same_side, plane.h:406-434, for two or more points; each with the contraction chosen for its distance. -/
def sameSide (f : Format) (p : Plane) (point1 point2 : Store Bool 3 × Store Number 3) (pointN : List (Store Bool 3 × Store Number 3)) : Option Bool := do
  let p0_side ← side f p point1
  others f p p0_side (point2 :: pointN)

/-- intersects of a box and a plane, impl/bounding_box_x_plane.h:22-26 and 37-41. `j`: the contraction of the dot product of the extents. -/
def intersectsBox (f : Format) (k j : Store Bool 3) (p : Plane) (center extents : Store Number 3) : Option Bool := do
  let distance ← distance f k p center
  let normal ← construct1 (fun a => some (Kahan.abs a)) p.normal
  some (FloatBox.atMost distance (← dot f j extents normal))

end Verif.Model.FloatPlane
