import Verif.Model.FloatSphere
/-!
# Pairs of bounding spheres of floating-point numbers

`/repo/include/muu/bounding_sphere.h` for `float` and `double` (and any type that is an IEEE 754 format and not promoted), each language operation rounded once. Which squares are
contracted with the additions is a parameter; the squares are named in the code, but compilers that contract across statements see through that.
-/
namespace Verif.Model.FloatSpheres
open Verif.Spec.IeeeArith Verif.Spec.FloatFormat Verif.Model.VectorStore Verif.Model.FloatVector Verif.Model.FloatSphere

/-- The square of a radius, before it is added. -/
def square (f : Format) (r : Number) (contracted : Bool) : Number := product f (r, r) contracted

/-- intersects(bs1, bs2), bounding_sphere.h:638-652. `c` says which square is contracted. -/
def intersects (f : Format) (k : Store Bool 3) (c : Bool × Bool) (a b : Sphere) : Option Bool :=
  (FloatLength.distanceSquared f k a.center b.center).map fun d => FloatBox.atMost d (Op.add.eval f (square f a.radius c.1) (square f b.radius c.2))

/-- contains(outer, inner), bounding_sphere.h:616-636. `c` says which square is contracted in the first sum, `e` whether it is in the second. -/
def contains (f : Format) (k : Store Bool 3) (c : Bool × Bool) (e : Bool) (outer inner : Sphere) : Option Bool :=
  (FloatLength.distanceSquared f k outer.center inner.center).map fun d =>
    if Kahan.less (Op.add.eval f (square f outer.radius c.1) (square f inner.radius c.2)) d then false
    else Kahan.atLeast (square f outer.radius false) (Op.add.eval f d (square f inner.radius e))

end Verif.Model.FloatSpheres
