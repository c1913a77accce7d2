import Verif.Model.FloatTriangle
/-!
# Barycentric coordinates and points inside triangles, of floating-point numbers

`/repo/include/muu/impl/geometry_common.h:344-427` and `/repo/include/muu/triangle.h` for `float` and `double` (and any type that is an IEEE 754 format and not promoted), each
language operation rounded once. Which products are contracted with additions (MUU_FMA_BLOCK, or the default of the compiler) is a parameter.
-/
namespace Verif.Model.FloatWeights
open Verif.Spec.IeeeArith Verif.Spec.FloatFormat Verif.Model.VectorStore Verif.Model.FloatVector Verif.Model.FloatProducts

/-- Which products are contracted: in the five dot products, in the divisor, in the two numerators, and (the products by the reciprocal) in the sum of the two weights, not in
the weights themselves. -/
structure Contractions where
  d00 : Store Bool 3
  d01 : Store Bool 3
  d11 : Store Bool 3
  d20 : Store Bool 3
  d21 : Store Bool 3
  divisor : Bool × Bool
  y : Bool × Bool
  z : Bool × Bool
  sum : Bool × Bool

/-- triangles_common::barycentric, geometry_common.h:344-368; barycentric, triangle.h:663-701. -/
def barycentric (f : Format) (c : Contractions) (p0 p1 p2 point : Store Number 3) : Option (Store Number 3) := do
  let v0 ← binary .sub f p1 p0
  let v1 ← binary .sub f p2 p0
  let d00 ← dot f c.d00 v0 v0
  let d01 ← dot f c.d01 v0 v1
  let d11 ← dot f c.d11 v1 v1
  let denom := Op.div.eval f (.fin false 1) (difference f c.divisor (d00, d11) (d01, d01))
  let v2 ← binary .sub f point p0
  let d20 ← dot f c.d20 v2 v0
  let d21 ← dot f c.d21 v2 v1
  let y := difference f c.y (d11, d20) (d01, d21)
  let z := difference f c.z (d00, d21) (d01, d20)
  some (.three (Op.sub.eval f (.fin false 1) (f.round ((product f (y, denom) c.sum.1).add (product f (z, denom) c.sum.2)))) (Op.mul.eval f y denom) (Op.mul.eval f z denom))

/-- The members of barycentric_generator, geometry_common.h:370-380. -/
structure Generator where
  p : Store Number 3
  v0 : Store Number 3
  v1 : Store Number 3
  d00 : Number
  d01 : Number
  d11 : Number
  denom : Number

/-- The constructor, geometry_common.h:382-394. The members are initialised in the order of their declarations. -/
def Generator.make (f : Format) (c : Contractions) (p0 p1 p2 : Store Number 3) : Option Generator := do
  let v0 ← binary .sub f p1 p0
  let v1 ← binary .sub f p2 p0
  let d00 ← dot f c.d00 v0 v0
  let d01 ← dot f c.d01 v0 v1
  let d11 ← dot f c.d11 v1 v1
  some ⟨p0, v0, v1, d00, d01, d11, Op.div.eval f (.fin false 1) (difference f c.divisor (d00, d11) (d01, d01))⟩

/-- operator(), geometry_common.h:396-409. -/
def Generator.call (f : Format) (c : Contractions) (g : Generator) (point : Store Number 3) : Option (Store Number 3) := do
  let v2 ← binary .sub f point g.p
  let d20 ← dot f c.d20 v2 g.v0
  let d21 ← dot f c.d21 v2 g.v1
  let y := difference f c.y (g.d11, d20) (g.d01, d21)
  let z := difference f c.z (g.d00, d21) (g.d01, d20)
  some (.three (Op.sub.eval f (.fin false 1) (f.round ((product f (y, g.denom) c.sum.1).add (product f (z, g.denom) c.sum.2)))) (Op.mul.eval f y g.denom)
    (Op.mul.eval f z g.denom))

/-- Which products are contracted in the three cross products and the two dot products. -/
structure SideContractions where
  u : (Bool × Bool) × (Bool × Bool) × (Bool × Bool)
  v : (Bool × Bool) × (Bool × Bool) × (Bool × Bool)
  w : (Bool × Bool) × (Bool × Bool) × (Bool × Bool)
  uv : Store Bool 3
  uw : Store Bool 3

/-- triangles_common::contains_coplanar_point, geometry_common.h:412-427. The second dot product is computed even where it is not needed; it has no effects. -/
def containsCoplanar (f : Format) (c : SideContractions) (p0 p1 p2 point : Store Number 3) : Option Bool := do
  let a ← binary .sub f p0 point
  let b ← binary .sub f p1 point
  let c' ← binary .sub f p2 point
  let u := cross f c.u.1 c.u.2.1 c.u.2.2 b c'
  let v := cross f c.v.1 c.v.2.1 c.v.2.2 c' a
  let w := cross f c.w.1 c.w.2.1 c.w.2.2 a b
  let uv ← dot f c.uv u v
  let uw ← dot f c.uw u w
  some (Kahan.atLeast uv FloatRay.zero && Kahan.atLeast uw FloatRay.zero)

end Verif.Model.FloatWeights
