import Verif.Model.FloatWeights
import Verif.Model.FloatLength
import Verif.Model.Approx
/-!
# Normals of triangles and points in their planes, of floating-point numbers

`/repo/include/muu/impl/geometry_common.h:292-296, 334-342, 429-436` and `/repo/include/muu/triangle.h` for `float` and `double` (and any type that is an IEEE 754 format and not
promoted), each language operation rounded once. Which products are contracted with additions is a parameter.
-/
namespace Verif.Model.FloatNormal
open Verif.Spec.IeeeArith Verif.Spec.FloatFormat Verif.Model.VectorStore Verif.Model.FloatVector Verif.Model.FloatProducts Verif.Model.FloatWeights

/-- Which products are contracted: in the cross product, in the length, and in the dot product. -/
structure NormalContractions where
  edges : (Bool × Bool) × (Bool × Bool) × (Bool × Bool)
  length : Store Bool 3
  height : Store Bool 3

/-- triangles_common::normal, geometry_common.h:292-296; normal, triangle.h:208-222. -/
def normal (f : Format) (c : NormalContractions) (p0 p1 p2 : Store Number 3) : Option (Store Number 3) := do
  FloatLength.normalize f c.length (cross f c.edges.1 c.edges.2.1 c.edges.2.2 (← binary .sub f p1 p0) (← binary .sub f p2 p0))

/-- triangles_common::coplanar, geometry_common.h:334-342, with approx_zero (math.h:536-546); coplanar, triangle.h:443-469. `none`: the assumption about epsilon is broken. -/
def coplanar (f : Format) (c : NormalContractions) (p0 p1 p2 point : Store Number 3) (epsilon : Number) : Option Bool := do
  let x ← dot f c.height (← binary .sub f point p0) (← normal f c p0 p1 p2)
  if Approx.assumed epsilon then some (Approx.near f epsilon x (.fin false 0)) else none

/-- triangles_common::contains_point, geometry_common.h:429-436; contains, triangle.h:471-498. -/
def containsPoint (f : Format) (c : NormalContractions) (k : SideContractions) (p0 p1 p2 point : Store Number 3) (epsilon : Number) : Option Bool := do
  if ← coplanar f c p0 p1 p2 point epsilon then containsCoplanar f k p0 p1 p2 point else some false

end Verif.Model.FloatNormal
