import Verif.Model.Sphere

/-!
# Model of the collision testers
(`include/muu/bounding_box.h` 1186-1287, `bounding_sphere.h` 750-817, `triangle.h` 862-897,
`impl/bounding_box_x_bounding_sphere.h` 52-66 and 102-116, `impl/bounding_box_x_triangle.h` 36-67)

A tester is built from a shape, stores what it needs and is then called with other shapes or testers.  Exact arithmetic.
-/

namespace Verif.Model.Testers

open Verif.Model.Vector Verif.Model.Geometry Verif.Model.Boxes Verif.Model.Sphere

noncomputable section

/-- The members of `collision_tester<bounding_box>`: `bounding_box.h` 1206-1209. -/
structure BoxTester where
  box : Box
  min : Vec
  max : Vec
  corners : Fin 8 → Vec

/-- Its constructor: `bounding_box.h` 1214-1227, `corner_min_max`: `geometry_common.h` 669-697. -/
def boxTester (bb : Box) : BoxTester :=
  let min := bb.minCorner
  let max := bb.maxCorner
  ⟨bb, min, max, ![min, ![max 0, min 1, min 2], ![max 0, max 1, min 2], ![max 0, min 1, max 2], ![min 0, max 1, min 2],
    ![min 0, max 1, max 2], ![min 0, min 1, max 2], max]⟩

/-- The members of `collision_tester<bounding_sphere>`: `bounding_sphere.h` 772-776. -/
structure SphereTester where
  center : Vec
  radius : ℝ
  radiusSquared : ℝ
  min : Vec
  max : Vec

/-- Its constructor: `bounding_sphere.h` 781-788. -/
def sphereTester (bs : Sphere) : SphereTester :=
  ⟨bs.center, bs.radius, bs.radius * bs.radius, fun i => bs.center i - bs.radius, fun i => bs.center i + bs.radius⟩

/-- The members of `collision_tester<triangle>`: `triangle.h` 876-878; a NaN normal is `none`. -/
structure TriTester where
  p0 : Vec
  p1 : Vec
  p2 : Vec
  edges : Fin 3 → Vec
  normal : Option Vec

/-- Its constructor: `triangle.h` 883-888. -/
def triTester (p0 p1 p2 : Vec) : TriTester :=
  ⟨p0, p1, p2, ![fun i => p1 i - p0 i, fun i => p2 i - p1 i, fun i => p0 i - p2 i], triNormal p0 p1 p2⟩

/-- The separating-axis tester from an axis and the array of corners: `sat_tester.h` 180-189, 103-117. -/
def satOfArray (axis : Vec) (points : Fin 8 → Vec) : Sat :=
  (List.finRange 8).tail.foldl (fun s k => s.add (dot axis (points k))) ⟨dot axis (points 0), dot axis (points 0)⟩

/-- `intersects_tri_akenine_moller_2`: `geometry_common.h` 783-791; a NaN normal fails the test. -/
def moller2 (corners : Fin 8 → Vec) (p0 : Vec) (normal : Option Vec) : Bool :=
  match normal with
  | none => false
  | some n => (satOfArray n corners).testValue (dot n p0)

/-- `intersects_tri_akenine_moller_3`: `geometry_common.h` 793-816. -/
def moller3 (corners : Fin 8 → Vec) (p0 p1 p2 : Vec) (edges : Fin 3 → Vec) : Bool :=
  (List.finRange 3).all fun k =>
    let test (i : Fin 3) : Bool :=
      let axis := crossAxisRight (edges k) i
      (satOfArray axis corners).testOther (satOf axis p0 [p1, p2])
    test 0 && test 1 && test 2

/-- `operator()(point)`: `bounding_box.h` 1229-1233. -/
def BoxTester.point (t : BoxTester) (p : Vec) : Bool := t.box.contains p

/-- `operator()(bb)`: `bounding_box.h` 1235-1239. -/
def BoxTester.boxTest (t : BoxTester) (bb : Box) : Bool := intersectsMinMax t.min t.max bb.minCorner bb.maxCorner

/-- `operator()(tester)`: `bounding_box.h` 1241-1245. -/
def BoxTester.boxTester (t u : BoxTester) : Bool := intersectsMinMax t.min t.max u.min u.max

/-- `operator()(p0, p1, p2)`: `bounding_box.h` 1247-1263; `operator()(triangle)`: `impl/bounding_box_x_triangle.h` 36-42. -/
def BoxTester.tri (t : BoxTester) (p0 p1 p2 : Vec) : Bool :=
  if akenineMoller1 t.min t.max p0 p1 p2 = false then false
  else if moller2 t.corners p0 (triNormal p0 p1 p2) = false then false
  else if moller3 t.corners p0 p1 p2 ![fun i => p1 i - p0 i, fun i => p2 i - p1 i, fun i => p0 i - p2 i] = false then false
  else true

/-- `operator()(tri_tester)`: `impl/bounding_box_x_triangle.h` 44-67. -/
def BoxTester.triTester (t : BoxTester) (u : TriTester) : Bool :=
  if akenineMoller1 t.min t.max u.p0 u.p1 u.p2 = false then false
  else if moller2 t.corners u.p0 u.normal = false then false
  else if moller3 t.corners u.p0 u.p1 u.p2 u.edges = false then false
  else true

/-- `operator()(bs)`: `impl/bounding_box_x_bounding_sphere.h` 52-58. -/
def BoxTester.sphere (t : BoxTester) (s : Sphere) : Bool := intersectsRadsq t.min t.max s.center (s.radius * s.radius)

/-- `operator()(bs_tester)`: `impl/bounding_box_x_bounding_sphere.h` 60-66. -/
def BoxTester.sphereTester (t : BoxTester) (u : SphereTester) : Bool := intersectsRadsq t.min t.max u.center u.radiusSquared

/-- `operator()(bs)`: `bounding_sphere.h` 790-794. -/
def SphereTester.sphere (t : SphereTester) (s : Sphere) : Bool :=
  decide (distanceSquared t.center s.center ≤ t.radiusSquared + s.radius * s.radius)

/-- `operator()(tester)`: `bounding_sphere.h` 796-800. -/
def SphereTester.sphereTester (t u : SphereTester) : Bool :=
  decide (distanceSquared t.center u.center ≤ t.radiusSquared + u.radiusSquared)

/-- `operator()(bb)`: `impl/bounding_box_x_bounding_sphere.h` 102-108. -/
def SphereTester.box (t : SphereTester) (b : Box) : Bool := intersectsRadsq b.minCorner b.maxCorner t.center t.radiusSquared

/-- `operator()(tester)`: `impl/bounding_box_x_bounding_sphere.h` 110-116. -/
def SphereTester.boxTester (t : SphereTester) (u : BoxTester) : Bool := intersectsRadsq u.min u.max t.center t.radiusSquared

end

end Verif.Model.Testers
