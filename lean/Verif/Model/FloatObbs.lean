import Verif.Model.FloatObb
/-!
# Oriented bounding boxes of floating-point numbers, with spheres and with boxes that are not turned

For `float` and `double` (and any type that is an IEEE 754 format and not promoted), each language operation rounded once, with any contraction.
-/
namespace Verif.Model.FloatObbs
open Verif.Spec.IeeeArith Verif.Spec.FloatFormat Verif.Model.VectorStore Verif.Model.FloatVector Verif.Model.FloatObb

/-- intersects of an oriented box and a sphere, impl/oriented_bounding_box_x_bounding_sphere.h:20-27 and 34-43. -/
def intersectsSphere (f : Format) (k l : Fin 3 → Store Bool 3) (m : Store Bool 3) (b : Obb) (s : FloatSphere.Sphere) : Option Bool := do
  let q ← closestPoint f k l b s.center
  (FloatLength.distanceSquared f m q s.center).map fun d => FloatBox.atMost d (Op.mul.eval f s.radius s.radius)

/-- The corners in the order of bounding_box::contains, impl/bounding_box_x_oriented_bounding_box.h:28-35. -/
def order : List (Fin 3 → Bool) :=
  [![false, false, false], ![true, false, false], ![false, true, false], ![true, true, false], ![false, false, true], ![true, false, true], ![false, true, true], ![true, true, true]]

/-- bounding_box::contains of an oriented box, impl/bounding_box_x_oriented_bounding_box.h:21-36. `l` is the contraction for each corner. -/
def boxContains (f : Format) (l : (Fin 3 → Bool) → Fin 3 → Store Bool 3) (b : FloatBox.Box) (o : Obb) : Bool :=
  order.all fun up => FloatBox.containsPoint f b (FloatSphere.components (corner f (l up) o up))

/-- vector::min of a range, vector.h:2403-2418, of the first vector and the others. -/
def minRange (v : FloatBox.Vec) (vs : List FloatBox.Vec) : FloatBox.Vec := vs.foldl (fun out w i => CoreUtils.min2 Kahan.less (out i) (w i)) v

/-- vector::max of a range, vector.h:2454-2468. -/
def maxRange (v : FloatBox.Vec) (vs : List FloatBox.Vec) : FloatBox.Vec := vs.foldl (fun out w i => CoreUtils.max2 Kahan.less (out i) (w i)) v

/-- from_points of a range, bounding_box.h:222-232. -/
def fromRange (f : Format) : List FloatBox.Vec → FloatBox.Box
  | [] => ⟨fun _ => .fin false 0, fun _ => .fin false 0⟩
  | v :: vs => FloatBox.fromMinMax f (minRange v vs) (maxRange v vs)

/-- bounding_box::from_obb, impl/bounding_box_x_oriented_bounding_box.h:38-51. -/
def fromObb (f : Format) (l : (Fin 3 → Bool) → Fin 3 → Store Bool 3) (o : Obb) : FloatBox.Box :=
  fromRange f (order.map fun up => FloatSphere.components (corner f (l up) o up))

end Verif.Model.FloatObbs
