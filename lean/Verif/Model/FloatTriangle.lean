import Verif.Model.FloatRay
import Verif.Model.FloatProducts
/-!
# Triangles of floating-point numbers

`/repo/include/muu/triangle.h`, `impl/geometry_common.h:286-330` and hits of rays (`impl/geometry_common.h:1024-1058`, `impl/ray_x_triangle.h`) for `float` and `double` (and
any type that is an IEEE 754 format and not promoted), each language operation rounded once. Which products are contracted with additions (MUU_FMA_BLOCK, or the default of
the compiler) is a parameter.
-/
namespace Verif.Model.FloatTriangle
open Verif.Spec.IeeeArith Verif.Spec.FloatFormat Verif.Spec.FloatSqrt Verif.Model.VectorStore Verif.Model.FloatVector Verif.Model.FloatProducts

/-- triangles_common::centroid, geometry_common.h:298-304; centroid, triangle.h:228-241. -/
def centroid (f : Format) (p0 p1 p2 : Store Number 3) : Option (Store Number 3) := do
  divide f (← binary .add f (← binary .add f p0 p1) p2) (.fin false 3)

/-- triangles_common::perimeter, geometry_common.h:306-314; perimeter, triangle.h:246-259. `k`: the contractions in the distances. -/
def perimeter (f : Format) (k0 k1 k2 : Store Bool 3) (p0 p1 p2 : Store Number 3) : Option Number := do
  let a ← FloatLength.distance f k0 p0 p1
  let b ← FloatLength.distance f k1 p1 p2
  let c ← FloatLength.distance f k2 p2 p0
  some (Op.add.eval f (Op.add.eval f a b) c)

/-- triangles_common::area, geometry_common.h:316-326; area, triangle.h:262-273. No product is taken by an addition. -/
def area (f : Format) (k0 k1 k2 : Store Bool 3) (p0 p1 p2 : Store Number 3) : Option Number := do
  let a ← FloatLength.distance f k0 p0 p1
  let b ← FloatLength.distance f k1 p1 p2
  let c ← FloatLength.distance f k2 p2 p0
  let s := Op.div.eval f (Op.add.eval f (Op.add.eval f a b) c) (.fin false 2)
  some (sqrt f (Op.mul.eval f (Op.mul.eval f (Op.mul.eval f s (Op.sub.eval f s a)) (Op.sub.eval f s b)) (Op.sub.eval f s c)))

/-- The contractions in `hits_triangle`: in the cross products `pvec` and `qvec`, in the four dot products, and of `u` and `v` with their sum in line 1054. -/
structure HitContraction where
  pvec : (Bool × Bool) × (Bool × Bool) × (Bool × Bool)
  qvec : (Bool × Bool) × (Bool × Bool) × (Bool × Bool)
  det : Store Bool 3
  u : Store Bool 3
  v : Store Bool 3
  t : Store Bool 3
  sum : Bool × Bool

/-- hits of a triangle: rays_common::hits_triangle, geometry_common.h:1024-1058, impl/ray_x_triangle.h:20-27. -/
def hitsTriangle (f : Format) (epsilon : Number) (c : HitContraction) (r : FloatRay.Ray) (p0 p1 p2 : Store Number 3) : Option (Option Number) := do
  let v0v1 ← binary .sub f p1 p0
  let v0v2 ← binary .sub f p2 p0
  let pvec := cross f c.pvec.1 c.pvec.2.1 c.pvec.2.2 r.direction v0v2
  let det ← dot f c.det v0v1 pvec
  if Kahan.less (Kahan.abs det) epsilon then
    some none
  else
    let invDet := Op.div.eval f (.fin false 1) det
    let tvec ← binary .sub f r.origin p0
    let du ← dot f c.u tvec pvec
    let u := Op.mul.eval f du invDet
    if Kahan.less u FloatRay.zero || Kahan.less (.fin false 1) u then
      some none
    else
      let qvec := cross f c.qvec.1 c.qvec.2.1 c.qvec.2.2 tvec v0v1
      let dv ← dot f c.v r.direction qvec
      let v := Op.mul.eval f dv invDet
      if Kahan.less v FloatRay.zero || Kahan.less (.fin false 1) (f.round ((product f (du, invDet) c.sum.1).add (product f (dv, invDet) c.sum.2))) then
        some none
      else
        let dt ← dot f c.t v0v2 qvec
        some (some (Op.mul.eval f dt invDet))

end Verif.Model.FloatTriangle
