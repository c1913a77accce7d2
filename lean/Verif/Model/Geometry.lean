import Verif.Model.Transform

/-!
# Model of planes, lines, line segments and triangles
(`include/muu/impl/geometry_common.h` 60-440, `plane.h`, `line_segment.h`, `triangle.h`)

Exact arithmetic over the real numbers.  Where the C++ divides a zero vector by its zero length, every component of the
result is NaN; such a result is `none` here, and a comparison with it is false.  Promotions to wider scalar types are not
modelled.
-/

namespace Verif.Model.Geometry

open Verif.Model.Matrix Verif.Model.Vector Verif.Model.Transform

noncomputable section

/-- A vector of three scalars. -/
abbrev Vec := Fin 3 → ℝ

/-- `approx_zero(x, epsilon)`: `math.h` 536-554 with `approx_equal` 452-477. -/
def approxZero (x epsilon : ℝ) : Bool := decide (|0 - x| < epsilon)

/-- `vector::normalize`, `none` for the zero vector (all components NaN): `vector.h` 2033-2049. -/
def normalizeNaN (v : Vec) : Option Vec := if v = 0 then none else some (normalizeV v)

/-- `vector::direction(from, to, length_out)`, `none` when the points coincide: `vector.h` 2211-2250. -/
def directionNaN (p q : Vec) : Option (Vec × ℝ) :=
  let delta : Vec := fun i => q i - p i
  if delta = 0 then none else some (normalizeOut delta)

/-! ## planes -/

/-- `storage_base<plane>`: `geometry_common.h` 69-74. -/
structure Plane where
  normal : Vec
  d : ℝ

/-- `planes_common::d_term`: `geometry_common.h` 94-98. -/
def dTerm (pos dir : Vec) : ℝ := -dot pos dir

/-- `plane(position, direction)`: `plane.h` 96-100. -/
def planeAt (pos dir : Vec) : Plane := ⟨dir, dTerm pos dir⟩

/-- `plane::origin`: `plane.h` 389-400, `geometry_common.h` 88-92. -/
def Plane.origin (p : Plane) : Vec := fun i => p.normal i * -p.d

/-- `plane::signed_distance`: `plane.h` 331-343, `geometry_common.h` 100-106. -/
def Plane.signedDistance (p : Plane) (x : Vec) : ℝ := dot p.normal x + p.d

/-- `plane::distance`: `plane.h` 346-358, `geometry_common.h` 108-114. -/
def Plane.distance (p : Plane) (x : Vec) : ℝ := |p.signedDistance x|

/-- `plane::project` of a point: `plane.h` 361-372, `geometry_common.h` 116-132. -/
def Plane.project (p : Plane) (x : Vec) : Vec := fun i => x i - p.normal i * p.signedDistance x

/-- `plane::project` of a line segment: `impl/plane_x_line_segment.h` 21-28. -/
def Plane.projectSegment (p : Plane) (s : Vec × Vec) : Vec × Vec := (p.project s.1, p.project s.2)

/-- `plane::contains(point, epsilon)`: `plane.h` 444-457, `geometry_common.h` 134-141. -/
def Plane.contains (p : Plane) (x : Vec) (epsilon : ℝ) : Bool := approxZero (p.signedDistance x) epsilon

/-- `plane::intersects(line_segment)` and `line_segment::intersects(plane)`: `geometry_common.h` 149-156,
`impl/plane_x_line_segment.h` 30-52. -/
def Plane.intersectsSegment (p : Plane) (start finish : Vec) : Bool :=
  decide (p.signedDistance start * p.signedDistance finish ≥ 0)

/-- `plane::normalize`: `plane.h` 287-301. -/
def Plane.normalizeP (p : Plane) : Plane :=
  let invLen := 1 / length p.normal
  ⟨fun i => p.normal i * invLen, p.d * invLen⟩

/-- `plane::same_side`: `plane.h` 407-421. -/
def Plane.sameSide (p : Plane) (p1 p2 : Vec) (pn : List Vec) : Bool :=
  let side (x : Vec) : Bool := decide (p.signedDistance x ≥ 0)
  let side0 := side p1
  pn.foldl (fun acc x => acc && (side0 == side x)) (side0 == side p2)

/-- `plane::transform`: `plane.h` 504-520; `tx * p.origin()` is `transform_position`. -/
def Plane.transform (p : Plane) (tx : Mat ℝ 4 4) : Plane :=
  planeAt (transformPosition44 tx p.origin) (transformDirection (by decide) (by decide) tx p.normal)

/-! ## lines and line segments -/

/-- `lines_common::project_distance`: `geometry_common.h` 173-179. -/
def lineProjectDistance (o dir x : Vec) : ℝ := dot (fun i => x i - o i) dir

/-- `lines_common::project`: `geometry_common.h` 181-187. -/
def lineProject (o dir x : Vec) : Vec := fun i => o i + dir i * lineProjectDistance o dir x

/-- `lines_common::distance_squared`: `geometry_common.h` 189-195. -/
def lineDistanceSquared (o dir x : Vec) : ℝ := distanceSquared x (lineProject o dir x)

/-- `lines_common::contains_point`: `geometry_common.h` 197-204. -/
def lineContains (o dir x : Vec) (epsilon : ℝ) : Bool := approxZero (lineDistanceSquared o dir x) epsilon

/-- `line_segment::closest_point`: `line_segment.h` 419-431, `geometry_common.h` 236-244. -/
def closestPoint (a b x : Vec) : Option Vec :=
  match directionNaN a b with
  | none => none
  | some (dir, len) => some fun i => a i + dir i * sclamp (lineProjectDistance a dir x) 0 len

/-- `line_segments_common::distance_squared`: `geometry_common.h` 246-252. -/
def segmentDistanceSquared (a b x : Vec) : Option ℝ :=
  match closestPoint a b x with
  | none => none
  | some q => some (distanceSquared x q)

/-- `line_segment::contains(point, epsilon)`: `line_segment.h` 465-487, `geometry_common.h` 254-261. -/
def segmentContains (a b x : Vec) (epsilon : ℝ) : Bool :=
  match segmentDistanceSquared a b x with
  | none => false
  | some d => decide (d < epsilon)

/-- `line_segment::contains(begin, end, epsilon)`: `line_segment.h` 491-508. -/
def segmentContainsAll (a b : Vec) (pts : List Vec) (epsilon : ℝ) : Bool :=
  if pts = [] then false else pts.all fun x => segmentContains a b x epsilon

/-- `line_segment::contains(line_segment, epsilon)`: `line_segment.h` 554-567. -/
def segmentContainsSegment (a b c d : Vec) (epsilon : ℝ) : Bool :=
  segmentContains a b c epsilon && segmentContains a b d epsilon

/-- `line_segment::colinear(point, epsilon)`: `line_segment.h` 445-462. -/
def colinear (a b x : Vec) (epsilon : ℝ) : Bool :=
  match directionNaN a b with
  | none => false
  | some (dir, _) => lineContains a dir x epsilon

/-- `line_segment::colinear(line_segment, epsilon)`: `line_segment.h` 516-532. -/
def colinearSegment (a b c d : Vec) (epsilon : ℝ) : Bool :=
  match directionNaN a b with
  | none => false
  | some (dir, _) => lineContains a dir c epsilon && lineContains a dir d epsilon

/-- `line_segment::midpoint`: `line_segment.h` 239-248. -/
def midpoint (a b : Vec) : Vec := fun i => (a i + b i) / 2

/-- `line_segment::length`: `line_segment.h` 271-275. -/
def segmentLength (a b : Vec) : ℝ := Vector.distance a b

/-- `line_segment::extend`: `line_segment.h` 621-634. -/
def extend (a b : Vec) (by_ : ℝ) : Option (Vec × Vec) :=
  match directionNaN a b with
  | none => none
  | some (dir, len) => some (a, fun i => a i + dir i * (len + by_))

/-! ## triangles -/

/-- `triangle::normal`: `geometry_common.h` 292-296. -/
def triNormal (p0 p1 p2 : Vec) : Option Vec := normalizeNaN (cross (fun i => p1 i - p0 i) (fun i => p2 i - p0 i))

/-- `plane::from_triangle` and `triangle::plane`: `plane.h` 102-116, `impl/plane_x_triangle.h`. -/
def planeFromTriangle (p0 p1 p2 : Vec) : Option Plane :=
  match triNormal p0 p1 p2 with
  | none => none
  | some n => some (planeAt p0 n)

/-- `line_segment::coplanar(line_segment, epsilon)`: `line_segment.h` 535-550. -/
def coplanarSegments (a b c d : Vec) (epsilon : ℝ) : Bool :=
  match triNormal a b c with
  | none => false
  | some n => Plane.contains ⟨n, dTerm a n⟩ d epsilon

/-- `triangle::centroid`: `geometry_common.h` 298-304. -/
def centroid (p0 p1 p2 : Vec) : Vec := fun i => (p0 i + p1 i + p2 i) / 3

/-- `triangle::perimeter`: `geometry_common.h` 306-314. -/
def perimeter (p0 p1 p2 : Vec) : ℝ := Vector.distance p0 p1 + Vector.distance p1 p2 + Vector.distance p2 p0

/-- `triangle::area`: `geometry_common.h` 316-326. -/
def area (p0 p1 p2 : Vec) : ℝ :=
  let a := Vector.distance p0 p1
  let b := Vector.distance p1 p2
  let c := Vector.distance p2 p0
  let s := (a + b + c) / 2
  Real.sqrt (s * (s - a) * (s - b) * (s - c))

/-- `triangle::degenerate`: `geometry_common.h` 328-332. -/
def triDegenerate (p0 p1 p2 : Vec) : Bool := decide (p0 = p1) || decide (p0 = p2) || decide (p1 = p2)

/-- `triangle::coplanar(point, epsilon)`: `geometry_common.h` 334-342. -/
def triCoplanar (p0 p1 p2 x : Vec) (epsilon : ℝ) : Bool :=
  match triNormal p0 p1 p2 with
  | none => false
  | some n => approxZero (dot (fun i => x i - p0 i) n) epsilon

/-- `triangle::barycentric`: `geometry_common.h` 344-368; `none` when the divisor is zero.  The `barycentric_generator`
(370-410) computes the same expressions in two steps. -/
def barycentric (p0 p1 p2 x : Vec) : Option Vec :=
  let v0 : Vec := fun i => p1 i - p0 i
  let v1 : Vec := fun i => p2 i - p0 i
  let d00 := dot v0 v0
  let d01 := dot v0 v1
  let d11 := dot v1 v1
  if d00 * d11 - d01 * d01 = 0 then none
  else
    let denom := 1 / (d00 * d11 - d01 * d01)
    let v2 : Vec := fun i => x i - p0 i
    let d20 := dot v2 v0
    let d21 := dot v2 v1
    let y := (d11 * d20 - d01 * d21) * denom
    let z := (d00 * d21 - d01 * d20) * denom
    some ![1 - (y + z), y, z]

/-- `triangles_common::contains_coplanar_point`: `geometry_common.h` 412-427. -/
def triContainsCoplanar (p0 p1 p2 x : Vec) : Bool :=
  let a : Vec := fun i => p0 i - x i
  let b : Vec := fun i => p1 i - x i
  let c : Vec := fun i => p2 i - x i
  let u := cross b c
  let v := cross c a
  let w := cross a b
  decide (dot u v ≥ 0) && decide (dot u w ≥ 0)

/-- `triangle::contains(point, epsilon)`: `geometry_common.h` 429-437. -/
def triContains (p0 p1 p2 x : Vec) (epsilon : ℝ) : Bool :=
  triCoplanar p0 p1 p2 x epsilon && triContainsCoplanar p0 p1 p2 x

/-- `triangle::contains(begin, end, epsilon)`: `triangle.h` 499-519. -/
def triContainsAll (p0 p1 p2 : Vec) (pts : List Vec) (epsilon : ℝ) : Bool :=
  if pts = [] then false else pts.all fun x => triContains p0 p1 p2 x epsilon

/-- `triangle::contains(line_segment, epsilon)`: `triangle.h` 523-547. -/
def triContainsSegment (p0 p1 p2 a b : Vec) (epsilon : ℝ) : Bool :=
  triContains p0 p1 p2 a epsilon && triContains p0 p1 p2 b epsilon

end

end Verif.Model.Geometry
