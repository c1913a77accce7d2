import Verif.Model.Geometry

/-!
# Model of axis-aligned bounding boxes and of the separating-axis tester
(`include/muu/bounding_box.h`, `sat_tester.h`, `impl/geometry_common.h` 478-905, `impl/bounding_box_x_*.h`)

Exact arithmetic over the real numbers; promotions to wider scalar types are not modelled.
-/

namespace Verif.Model.Boxes

open Verif.Model.Matrix Verif.Model.Vector Verif.Model.Transform Verif.Model.Geometry

noncomputable section

/-- `storage_base<bounding_box>`: `geometry_common.h` 629-640. -/
structure Box where
  center : Vec
  extents : Vec

/-- `storage_base<bounding_sphere>`: `geometry_common.h` 448-455. -/
structure Sphere where
  center : Vec
  radius : ℝ

/-- `box_corner`: `geometry_common.h` 22-33; the three flags of the enumerator. -/
structure Corner where
  x : Bool
  y : Bool
  z : Bool

/-- `boxes_common::corner_offset`: `geometry_common.h` 575-619. -/
def cornerOffset (e : Vec) : Corner → Vec
  | ⟨false, false, false⟩ => fun i => -e i
  | ⟨true, false, false⟩ => ![e 0, -e 1, -e 2]
  | ⟨false, true, false⟩ => ![-e 0, e 1, -e 2]
  | ⟨false, false, true⟩ => ![-e 0, -e 1, e 2]
  | ⟨true, true, false⟩ => ![e 0, e 1, -e 2]
  | ⟨true, false, true⟩ => ![e 0, -e 1, e 2]
  | ⟨false, true, true⟩ => ![-e 0, e 1, e 2]
  | ⟨true, true, true⟩ => e

/-- `bounding_box::corner`: `geometry_common.h` 654-667, `bounding_box.h` 580-608. -/
def Box.corner (b : Box) (k : Corner) : Vec := fun i => b.center i + cornerOffset b.extents k i

/-- `bounding_box::min_corner`: `bounding_box.h` 610-622. -/
def Box.minCorner (b : Box) : Vec := b.corner ⟨false, false, false⟩

/-- `bounding_box::max_corner`: `bounding_box.h` 624-636. -/
def Box.maxCorner (b : Box) : Vec := b.corner ⟨true, true, true⟩

/-- `bounding_box::from_min_max`: `bounding_box.h` 189-205, `geometry_common.h` 491-501. -/
def fromMinMax (lo hi : Vec) : Box := ⟨fun i => (lo i + hi i) * (1 / 2), fun i => (hi i - lo i) * (1 / 2)⟩

/-- `vector::min(v1, v2, vecs...)`: `vector.h` 2383-2402. -/
def minMany (v1 v2 : Vec) : List Vec → Vec
  | [] => Vector.min v1 v2
  | v :: vs => Vector.min v1 (minMany v2 v vs)

/-- `vector::max(v1, v2, vecs...)`: `vector.h` 2434-2453. -/
def maxMany (v1 v2 : Vec) : List Vec → Vec
  | [] => Vector.max v1 v2
  | v :: vs => Vector.max v1 (maxMany v2 v vs)

/-- `bounding_box::from_points(pt0, pt1, pts...)`: `bounding_box.h` 207-222. -/
def fromPoints (p0 p1 : Vec) (pts : List Vec) : Box := fromMinMax (minMany p0 p1 pts) (maxMany p0 p1 pts)

/-- `bounding_box::from_points(begin, end)`: `bounding_box.h` 224-233. -/
def fromRange (pts : List Vec) : Box :=
  if pts = [] then ⟨fun _ => 0, fun _ => 0⟩ else fromMinMax (minRange pts) (maxRange pts)

/-- `bounding_box::from_sphere`: `impl/bounding_box_x_bounding_sphere.h` 20-26. -/
def fromSphere (s : Sphere) : Box := ⟨s.center, fun _ => s.radius⟩

/-- `width`, `height`, `depth`: `geometry_common.h` 503-519. -/
def Box.side (b : Box) (i : Fin 3) : ℝ := b.extents i * 2

/-- `diagonal`: `geometry_common.h` 521-525. -/
def Box.diagonal (b : Box) : ℝ := length b.extents * 2

/-- `shortest_side`, with `shortest_extent`: `geometry_common.h` 527-531, 551-555. -/
def Box.shortestSide (b : Box) : ℝ := smin (b.extents 0) (smin (b.extents 1) (b.extents 2)) * 2

/-- `longest_side`, with `longest_extent`: `geometry_common.h` 533-537, 557-561. -/
def Box.longestSide (b : Box) : ℝ := smax (b.extents 0) (smax (b.extents 1) (b.extents 2)) * 2

/-- `volume`: `geometry_common.h` 563-567. -/
def Box.volume (b : Box) : ℝ := b.extents 0 * b.extents 1 * b.extents 2 * 8

/-- `degenerate`: `geometry_common.h` 569-573. -/
def Box.degenerate (b : Box) : Bool :=
  decide (b.extents 0 ≤ 0) || decide (b.extents 1 ≤ 0) || decide (b.extents 2 ≤ 0)

/-- `translate`: `bounding_box.h` 651-668. -/
def Box.translate (b : Box) (offset : Vec) : Box := ⟨fun i => b.center i + offset i, b.extents⟩

/-- `scale`: `bounding_box.h` 682-699. -/
def Box.scale (b : Box) (s : Vec) : Box := ⟨b.center, fun i => b.extents i * s i⟩

/-- `transform`: `bounding_box.h` 714-742; `tx.m[k]` is column `k`, cut to three components. -/
def Box.transform (b : Box) (tx : Mat ℝ 4 4) : Box :=
  let lo : Vec := fun i => b.center i - b.extents i
  let hi : Vec := fun i => b.center i + b.extents i
  let col (k : Fin 4) : Vec := fun i => tx i.castSucc k
  let xa : Vec := fun i => col 0 i * lo 0
  let xb : Vec := fun i => col 0 i * hi 0
  let ya : Vec := fun i => col 1 i * lo 1
  let yb : Vec := fun i => col 1 i * hi 1
  let za : Vec := fun i => col 2 i * lo 2
  let zb : Vec := fun i => col 2 i * hi 2
  let mn : Vec := fun i => Vector.min xa xb i + Vector.min ya yb i + Vector.min za zb i
  let mx : Vec := fun i => Vector.max xa xb i + Vector.max ya yb i + Vector.max za zb i
  let ext : Vec := fun i => (mx i - mn i) / 2
  ⟨fun i => mn i + ext i + col 3 i, ext⟩

/-- `append(pt)`: `bounding_box.h` 766-777. -/
def Box.append (b : Box) (p : Vec) : Box := fromMinMax (Vector.min b.minCorner p) (Vector.max b.maxCorner p)

/-- `append(pt1, pt2, pts...)`: `bounding_box.h` 786-806; with a segment (`impl/bounding_box_x_line_segment.h` 36-42) or a
triangle (`impl/bounding_box_x_triangle.h` 69-75) for the points. -/
def Box.appendMany (b : Box) (p1 p2 : Vec) (pts : List Vec) : Box :=
  fromMinMax (minMany b.minCorner p1 (p2 :: pts)) (maxMany b.maxCorner p1 (p2 :: pts))

/-- `append(bb)`: `bounding_box.h` 813-816. -/
def Box.appendBox (b c : Box) : Box := b.appendMany c.minCorner c.maxCorner []

/-- `closest_point`: `bounding_box.h` 839-844, `geometry_common.h` 726-732. -/
def Box.closestPoint (b : Box) (p : Vec) : Vec :=
  Vector.clamp p (fun i => b.center i - b.extents i) (fun i => b.center i + b.extents i)

/-- `contains(point)`: `bounding_box.h` 861-874, `geometry_common.h` 747-756. -/
def Box.contains (b : Box) (p : Vec) : Bool :=
  let adj : Vec := fun i => |p i - b.center i|
  decide (adj 0 ≤ b.extents 0) && decide (adj 1 ≤ b.extents 1) && decide (adj 2 ≤ b.extents 2)

/-- `contains(begin, end)`: `bounding_box.h` 876-892. -/
def Box.containsAll (b : Box) (pts : List Vec) : Bool := if pts = [] then false else pts.all b.contains

/-- `contains(segment)`: `bounding_box.h` 898-917. -/
def Box.containsSegment (b : Box) (p q : Vec) : Bool := b.contains p && b.contains q

/-- `contains(triangle)`: `bounding_box.h` 979-999. -/
def Box.containsTri (b : Box) (p0 p1 p2 : Vec) : Bool := b.contains p0 && b.contains p1 && b.contains p2

/-- `intersects(start, end)`: `bounding_box.h` 919-946. -/
def Box.intersectsSegment (b : Box) (start finish : Vec) : Bool :=
  let md : Vec := fun i => (finish i - start i) / 2
  let mp : Vec := fun i => start i + md i - b.center i
  let ad : Vec := fun i => |md i|
  let e := b.extents
  if |mp 0| > e 0 + ad 0 ∨ |mp 1| > e 1 + ad 1 ∨ |mp 2| > e 2 + ad 2 then false
  else if |md 1 * mp 2 - md 2 * mp 1| > e 1 * ad 2 + e 2 * ad 1 ∨
      |md 2 * mp 0 - md 0 * mp 2| > e 2 * ad 0 + e 0 * ad 2 ∨
      |md 0 * mp 1 - md 1 * mp 0| > e 0 * ad 1 + e 1 * ad 0 then false
  else true

/-- `intersects(plane)`: `impl/bounding_box_x_plane.h` 20-26. -/
def Box.intersectsPlane (b : Box) (p : Plane) : Bool :=
  decide (p.distance b.center ≤ dot b.extents (fun i => |p.normal i|))

/-- `aabbs_common::intersects_aabb_min_max`: `geometry_common.h` 886-898. -/
def intersectsMinMax (min1 max1 min2 max2 : Vec) : Bool :=
  decide (max1 0 ≥ min2 0) && decide (min1 0 ≤ max2 0) && decide (max1 1 ≥ min2 1) && decide (min1 1 ≤ max2 1)
    && decide (max1 2 ≥ min2 2) && decide (min1 2 ≤ max2 2)

/-- `aabbs_common::contains_aabb_min_max`: `geometry_common.h` 900-912. -/
def containsMinMax (outerMin outerMax innerMin innerMax : Vec) : Bool :=
  decide (outerMin 0 ≤ innerMin 0) && decide (outerMax 0 ≥ innerMax 0) && decide (outerMin 1 ≤ innerMin 1)
    && decide (outerMax 1 ≥ innerMax 1) && decide (outerMin 2 ≤ innerMin 2) && decide (outerMax 2 ≥ innerMax 2)

/-- `intersects(bounding_box)`: `bounding_box.h` 1076-1090; also the collision tester's, 1233-1243. -/
def Box.intersectsBox (b c : Box) : Bool := intersectsMinMax b.minCorner b.maxCorner c.minCorner c.maxCorner

/-- `contains(bounding_box)`: `bounding_box.h` 1056-1073. -/
def Box.containsBox (outer inner : Box) : Bool :=
  containsMinMax outer.minCorner outer.maxCorner inner.minCorner inner.maxCorner

/-- `aabbs_common::intersects_sphere_min_max_radsq`: `geometry_common.h` 860-868. -/
def intersectsRadsq (lo hi c : Vec) (radsq : ℝ) : Bool := decide (distanceSquared (Vector.clamp c lo hi) c ≤ radsq)

/-- `intersects(bounding_sphere)`: `impl/bounding_box_x_bounding_sphere.h` 44-50 (and 94-100), `geometry_common.h`
870-881; the collision testers' (52-66, 102-116) compute the same from stored corners. -/
def Box.intersectsSphere (b : Box) (s : Sphere) : Bool :=
  intersectsRadsq (fun i => b.center i - b.extents i) (fun i => b.center i + b.extents i) s.center (s.radius * s.radius)

/-- `contains(bounding_sphere)`: `impl/bounding_box_x_bounding_sphere.h` 28-42. -/
def Box.containsSphere (b : Box) (s : Sphere) : Bool :=
  if intersectsRadsq b.minCorner b.maxCorner s.center (s.radius * s.radius) = false then false
  else containsMinMax b.minCorner b.maxCorner (fun i => s.center i - s.radius) (fun i => s.center i + s.radius)

/-- `aabbs_common::furthest_center_min_max`: `geometry_common.h` 734-745. -/
def furthest (center lo hi p : Vec) : Vec :=
  ![if p 0 ≥ center 0 then lo 0 else hi 0, if p 1 ≥ center 1 then lo 1 else hi 1, if p 2 ≥ center 2 then lo 2 else hi 2]

/-- `bounding_sphere::contains(bounding_box)`: `impl/bounding_box_x_bounding_sphere.h` 76-92. -/
def Sphere.containsBox (s : Sphere) (b : Box) : Bool :=
  let radsq := s.radius * s.radius
  if intersectsRadsq b.minCorner b.maxCorner s.center radsq = false then false
  else decide (distanceSquared (furthest b.center b.minCorner b.maxCorner s.center) s.center ≤ radsq)

/-! ## the separating-axis tester -/

/-- `sat_tester`: `sat_tester.h` 46-50. -/
structure Sat where
  min : ℝ
  max : ℝ

/-- `sat_tester::add` of one projection: `sat_tester.h` 61-92. -/
def Sat.add (s : Sat) (proj : ℝ) : Sat := ⟨smin proj s.min, smax proj s.max⟩

/-- The constructors from an axis and points: `sat_tester.h` 155-202. -/
def satOf (axis p : Vec) (pts : List Vec) : Sat := pts.foldl (fun s q => s.add (dot axis q)) ⟨dot axis p, dot axis p⟩

/-- The constructors from a principal axis and points: `sat_tester.h` 167-178, 191-202. -/
def satOfIndex (i : Fin 3) (p : Vec) (pts : List Vec) : Sat := pts.foldl (fun s q => s.add (q i * 1)) ⟨p i * 1, p i * 1⟩

/-- `operator()(val)`: `sat_tester.h` 204-209. -/
def Sat.testValue (s : Sat) (val : ℝ) : Bool := decide (s.min ≤ val) && decide (s.max ≥ val)

/-- `operator()(min_val, max_val)`: `sat_tester.h` 211-216. -/
def Sat.testRange (s : Sat) (minVal maxVal : ℝ) : Bool := decide (s.min ≤ maxVal) && decide (s.max ≥ minVal)

/-- `operator()(other)`: `sat_tester.h` 218-223. -/
def Sat.testOther (s o : Sat) : Bool := decide (s.min ≤ o.max) && decide (s.max ≥ o.min)

/-- The corners after `min`, in the order of `geometry_common.h` 828-835. -/
def cornersMinMax (lo hi : Vec) : List Vec :=
  [![hi 0, lo 1, lo 2], ![hi 0, hi 1, lo 2], ![hi 0, lo 1, hi 2], ![lo 0, hi 1, lo 2], ![lo 0, hi 1, hi 2],
    ![lo 0, lo 1, hi 2], hi]

/-- `intersects_tri_akenine_moller_1`: `geometry_common.h` 765-781. -/
def akenineMoller1 (lo hi p0 p1 p2 : Vec) : Bool :=
  let test (i : Fin 3) : Bool := (satOfIndex i p0 [p1, p2]).testRange (lo i) (hi i)
  test 0 && test 1 && test 2

/-- `intersects_tri_akenine_moller_2`: `geometry_common.h` 783-791; a NaN normal fails the test. -/
def akenineMoller2 (lo hi p0 : Vec) (normal : Option Vec) : Bool :=
  match normal with
  | none => false
  | some n => (satOf n lo (cornersMinMax lo hi)).testValue (dot n p0)

/-- `intersects_tri_akenine_moller_3`: `geometry_common.h` 793-816. -/
def akenineMoller3 (lo hi p0 p1 p2 : Vec) (edges : List Vec) : Bool :=
  edges.all fun edge =>
    let test (i : Fin 3) : Bool :=
      let axis := crossAxisRight edge i
      (satOf axis lo (cornersMinMax lo hi)).testOther (satOf axis p0 [p1, p2])
    test 0 && test 1 && test 2

/-- `aabbs_common::intersects_tri_min_max`: `geometry_common.h` 818-844. -/
def intersectsTriMinMax (lo hi p0 p1 p2 : Vec) : Bool :=
  if akenineMoller1 lo hi p0 p1 p2 = false then false
  else if akenineMoller2 lo hi p0 (triNormal p0 p1 p2) = false then false
  else if akenineMoller3 lo hi p0 p1 p2
      [fun i => p1 i - p0 i, fun i => p2 i - p1 i, fun i => p0 i - p2 i] = false then false
  else true

/-- `intersects(triangle)`: `bounding_box.h` 1001-1022, `geometry_common.h` 846-854; the collision testers'
(`bounding_box.h` 1245-1262, `impl/bounding_box_x_triangle.h` 36-64) run the same three parts. -/
def Box.intersectsTri (b : Box) (p0 p1 p2 : Vec) : Bool :=
  intersectsTriMinMax (fun i => b.center i - b.extents i) (fun i => b.center i + b.extents i) p0 p1 p2

end

end Verif.Model.Boxes
