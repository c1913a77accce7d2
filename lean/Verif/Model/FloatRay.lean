import Verif.Model.FloatPlane
import Verif.Model.FloatSphere
import Verif.Model.FloatLength
/-!
# Rays of floating-point numbers

`/repo/include/muu/ray.h`, `impl/ray_x_*.h` and `impl/geometry_common.h:991-1126` for `float` and `double` (and any type that is an IEEE 754 format and not promoted), each
language operation rounded once. The arguments of type `Store Bool 3` are the contractions that the compiler has chosen for the dot products (MUU_FMA_BLOCK, or the
default of the compiler). Hits of triangles are not modelled here.
-/
namespace Verif.Model.FloatRay
open Verif.Spec.IeeeArith Verif.Spec.FloatFormat Verif.Spec.FloatSqrt Verif.Model.VectorStore Verif.Model.FloatVector

/-- ray, ray.h:29-31: its members. -/
structure Ray where
  origin : Store Number 3
  direction : Store Number 3

/-- at, ray.h:275-304. `c`: the products that are contracted with the sums. -/
def «at» (f : Format) (c : Store Bool 3) (r : Ray) (distance : Number) : Option (Store Number 3) := do
  let products ← construct (fun d b => some (product f (d, distance) b)) r.direction c
  construct (fun o p => some (f.round (Number.add o p))) r.origin products

/-- `scalar_type{}` -/
def zero : Number := .fin false 0

/-- hits of a plane: rays_common::hits_plane, geometry_common.h:1002-1022, impl/ray_x_plane.h:20-26. -/
def hitsPlane (f : Format) (k1 k2 k3 : Store Bool 3) (r : Ray) (p : FloatPlane.Plane) : Option (Option Number) := do
  let nd ← dot f k1 r.direction p.normal
  let signed_dist ← FloatPlane.signedDistance f k2 p r.origin
  if (Kahan.less zero signed_dist && Kahan.atLeast nd zero) || (Kahan.less signed_dist zero && FloatBox.atMost nd zero) then
    some none
  else
    let pn ← dot f k3 r.origin p.normal
    let hit_distance := Op.div.eval f (Op.sub.eval f p.d.negate pn) nd
    some (if Kahan.atLeast hit_distance zero then some hit_distance else none)

/-- power_helper_, impl/core_constants.h:25-34. -/
def powerHelper (f : Format) (base : Number) : ℕ → Number
  | 0 => .fin false 1
  | n + 1 => Op.mul.eval f base (powerHelper f base n)

/-- default_epsilon, impl/core_constants.h:126, with power_ (35-41) of a negative exponent; `digits10` is std::numeric_limits<T>::digits10: 6 for float, 15 for double. -/
def defaultEpsilon (f : Format) (digits10 : ℕ) : Number :=
  Op.mul.eval f (.fin false 10) (Op.div.eval f (.fin false 1) (powerHelper f (.fin false 10) digits10))

/-- The products of hits_sphere that are contracted: `r2` in line 1080, `a2` in line 1080, `a2` in line 1083, `b * b` and `r2` in line 1084. -/
structure SphereContraction where
  r2 : Bool
  a2 : Bool
  a2' : Bool
  bb : Bool
  r2' : Bool

/-- hits of a sphere: rays_common::hits_sphere, geometry_common.h:1060-1092, impl/ray_x_bounding_sphere.h:20-27. -/
def hitsSphere (f : Format) (epsilon : Number) (k1 k2 : Store Bool 3) (c : SphereContraction) (r : Ray) (s : FloatSphere.Sphere) : Option (Option Number) := do
  let e ← binary .sub f s.center r.origin
  let a ← dot f k1 e r.direction
  if Kahan.less a zero then
    some none
  else
    let e2 ← lengthSquared f k2 e
    if Kahan.less (f.round ((f.round ((product f (s.radius, s.radius) c.r2).sub e2)).add (product f (a, a) c.a2))) epsilon then
      some none
    else
      let b := sqrt f (f.round (e2.sub (product f (a, a) c.a2')))
      let f' := sqrt f (f.round ((product f (s.radius, s.radius) c.r2').sub (product f (b, b) c.bb)))
      if Kahan.less e2 (Op.mul.eval f s.radius s.radius) then
        some (some (Op.add.eval f a f'))
      else
        some (some (Op.sub.eval f a f'))

/-- hits_aabb_min_max, geometry_common.h:1094-1115. -/
def hitsMinMax (f : Format) (origin direction lo hi : FloatBox.Vec) : Option Number :=
  let t (face : FloatBox.Vec) (i : Fin 3) : Number := Op.div.eval f (Op.sub.eval f (face i) (origin i)) (direction i)
  let near (i : Fin 3) : Number := CoreUtils.min2 Kahan.less (t lo i) (t hi i)
  let far (i : Fin 3) : Number := CoreUtils.max2 Kahan.less (t lo i) (t hi i)
  let tmin := CoreUtils.maxN Kahan.less (near 0) (near 1) [near 2]
  let tmax := CoreUtils.minN Kahan.less (far 0) (far 1) [far 2]
  if Kahan.less tmax zero || Kahan.less tmax tmin then
    none
  else
    some (if Kahan.less tmin zero then tmax else tmin)

/-- hits of a box: rays_common::hits_aabb, geometry_common.h:1117-1124, impl/ray_x_bounding_box.h:20-27. -/
def hitsBox (f : Format) (r : Ray) (b : FloatBox.Box) : Option Number :=
  hitsMinMax f (FloatSphere.components r.origin) (FloatSphere.components r.direction) (fun i => Op.sub.eval f (b.center i) (b.extents i))
    (fun i => Op.add.eval f (b.center i) (b.extents i))

end Verif.Model.FloatRay
