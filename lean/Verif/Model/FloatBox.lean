import Verif.Model.CoreUtils
import Verif.Model.Kahan
/-!
# Bounding boxes of floating-point numbers

`/repo/include/muu/bounding_box.h` and `impl/geometry_common.h` for `float` and `double` (and any type that is an IEEE 754 format and not
promoted), each language operation rounded once. The operators of vectors are those of each component (`Verif.Model.FloatVector`, C147); none of
the sums here takes a product that a compiler could contract, but for the products by 0.5 of `center` and `extents`, which are returned.
-/
namespace Verif.Model.FloatBox
open Verif.Spec.IeeeArith Verif.Spec.FloatFormat Verif.Model.FloatVector

/-- vector_type, three scalars. -/
abbrev Vec := Fin 3 → Number

/-- bounding_box, bounding_box.h:31-33, 84-92: its members. -/
structure Box where
  center : Vec
  extents : Vec

/-- `a <= b` (IEEE 754-2008, 5.11). -/
def atMost (a b : Number) : Bool := Kahan.atLeast b a

/-- `static_cast<scalar_type>(0.5)` -/
def half : Number := .fin false (1 / 2)

/-- boxes_common::center, geometry_common.h:492-496. -/
def centerOf (f : Format) (min max : Vec) : Vec := fun i => Op.mul.eval f (Op.add.eval f (min i) (max i)) half

/-- boxes_common::extents, geometry_common.h:498-502. -/
def extentsOf (f : Format) (min max : Vec) : Vec := fun i => Op.mul.eval f (Op.sub.eval f (max i) (min i)) half

/-- from_min_max, bounding_box.h:190-204. -/
def fromMinMax (f : Format) (min max : Vec) : Box := ⟨centerOf f min max, extentsOf f min max⟩

/-- vector::min of two or more, vector.h:2385-2400. -/
def minMany (p0 p1 : Vec) : List Vec → Vec
  | [] => fun i => CoreUtils.min2 Kahan.less (p0 i) (p1 i)
  | p :: ps => fun i => CoreUtils.min2 Kahan.less (p0 i) (minMany p1 p ps i)

/-- vector::max of two or more, vector.h:2436-2451. -/
def maxMany (p0 p1 : Vec) : List Vec → Vec
  | [] => fun i => CoreUtils.max2 Kahan.less (p0 i) (p1 i)
  | p :: ps => fun i => CoreUtils.max2 Kahan.less (p0 i) (maxMany p1 p ps i)

/-- from_points of two or more points, bounding_box.h:208-222. -/
def fromPoints (f : Format) (p0 p1 : Vec) (ps : List Vec) : Box := fromMinMax f (minMany p0 p1 ps) (maxMany p0 p1 ps)

/-- min_corner: aabbs_common::corner<box_corner::min>, geometry_common.h:653-658, with corner_offset the opposite of the extents. -/
def minCorner (f : Format) (b : Box) : Vec := fun i => Op.add.eval f (b.center i) (b.extents i).negate

/-- max_corner: aabbs_common::corner<box_corner::max>, geometry_common.h:653-658, with corner_offset the extents. -/
def maxCorner (f : Format) (b : Box) : Vec := fun i => Op.add.eval f (b.center i) (b.extents i)

/-- append of a point, bounding_box.h:766-777. -/
def append (f : Format) (b : Box) (p : Vec) : Box := fromMinMax f (minMany (minCorner f b) p []) (maxMany (maxCorner f b) p [])

/-- aabbs_common::contains_point, geometry_common.h:746-755; contains(point), bounding_box.h:861-874. -/
def containsPoint (f : Format) (b : Box) (p : Vec) : Bool :=
  let adj : Vec := fun i => Kahan.abs (Op.sub.eval f (p i) (b.center i))
  atMost (adj 0) (b.extents 0) && atMost (adj 1) (b.extents 1) && atMost (adj 2) (b.extents 2)

/-- intersects_aabb_min_max, geometry_common.h:886-898; intersects, bounding_box.h:1074-1090. -/
def intersects (f : Format) (a b : Box) : Bool :=
  let (min1, max1, min2, max2) := (minCorner f a, maxCorner f a, minCorner f b, maxCorner f b)
  Kahan.atLeast (max1 0) (min2 0) && atMost (min1 0) (max2 0) && Kahan.atLeast (max1 1) (min2 1) && atMost (min1 1) (max2 1) &&
    Kahan.atLeast (max1 2) (min2 2) && atMost (min1 2) (max2 2)

/-- contains_aabb_min_max, geometry_common.h:900-912; contains(box), bounding_box.h:1056-1072. -/
def containsBox (f : Format) (outer inner : Box) : Bool :=
  let (min1, max1, min2, max2) := (minCorner f outer, maxCorner f outer, minCorner f inner, maxCorner f inner)
  atMost (min1 0) (min2 0) && Kahan.atLeast (max1 0) (max2 0) && atMost (min1 1) (min2 1) && Kahan.atLeast (max1 1) (max2 1) &&
    atMost (min1 2) (min2 2) && Kahan.atLeast (max1 2) (max2 2)

/-- closest_point, bounding_box.h:839-844, with aabbs_common::closest_min_max, geometry_common.h:727-732, and clamp, vector.h:2490-2502. -/
def closestPoint (f : Format) (b : Box) (p : Vec) : Vec :=
  fun i => CoreUtils.clamp Kahan.less (p i) (Op.sub.eval f (b.center i) (b.extents i)) (Op.add.eval f (b.center i) (b.extents i))

end Verif.Model.FloatBox
