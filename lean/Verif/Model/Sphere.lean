import Verif.Model.Boxes

/-!
# Model of bounding spheres
(`include/muu/bounding_sphere.h`, `impl/bounding_sphere_x_*.h`, `impl/geometry_common.h` 458-475)

Exact arithmetic over the real numbers; promotions to wider scalar types are not modelled.
-/

namespace Verif.Model.Sphere

open Verif.Model.Matrix Verif.Model.Vector Verif.Model.Geometry Verif.Model.Boxes

noncomputable section

/-- `diameter`: `bounding_sphere.h` 171-176. -/
def diameter (s : Sphere) : ℝ := s.radius * 2

/-- `volume`: `bounding_sphere.h` 178-188, `geometry_common.h` 470-474. -/
def volume (s : Sphere) : ℝ := 4 / 3 * Real.pi * s.radius * s.radius * s.radius

/-- `translate`: `bounding_sphere.h` 367-391. -/
def translate (s : Sphere) (offset : Vec) : Sphere := ⟨fun i => s.center i + offset i, s.radius⟩

/-- `scale`: `bounding_sphere.h` 397-421. -/
def scale (s : Sphere) (k : ℝ) : Sphere := ⟨s.center, s.radius * k⟩

/-- `closest_point`: `bounding_sphere.h` 430-440. -/
def closestPoint (s : Sphere) (p : Vec) : Vec :=
  let delta : Vec := fun i => p i - s.center i
  let distSquared := lengthSquared delta
  if distSquared ≤ s.radius * s.radius then p
  else fun i => normalizeLensq delta distSquared i * s.radius

/-- `contains(point)`: `bounding_sphere.h` 457-470. -/
def contains (s : Sphere) (p : Vec) : Bool := decide (distanceSquared s.center p ≤ s.radius * s.radius)

/-- `contains(begin, end)`: `bounding_sphere.h` 472-488. -/
def containsAll (s : Sphere) (pts : List Vec) : Bool := if pts = [] then false else pts.all (contains s)

/-- `contains(start, end)`: `bounding_sphere.h` 494-501, `impl/bounding_sphere_x_line_segment.h`. -/
def containsSegment (s : Sphere) (p q : Vec) : Bool := contains s p && contains s q

/-- `contains(p0, p1, p2)`: `bounding_sphere.h` 523-531, `impl/bounding_sphere_x_triangle.h`. -/
def containsTri (s : Sphere) (p0 p1 p2 : Vec) : Bool := contains s p0 && contains s p1 && contains s p2

/-- `intersects(p0, p1, p2)`: `bounding_sphere.h` 544-598, `impl/bounding_sphere_x_triangle.h`. -/
def intersectsTri (s : Sphere) (p0' p1' p2' : Vec) : Bool :=
  let p0 : Vec := fun i => p0' i - s.center i
  let p1 : Vec := fun i => p1' i - s.center i
  let p2 : Vec := fun i => p2' i - s.center i
  let rr := s.radius * s.radius
  let V := cross (fun i => p1 i - p0 i) (fun i => p2 i - p0 i)
  let d := dot p0 V
  let e := dot V V
  if d * d > rr * e then false
  else
    let aa := dot p0 p0
    let ab := dot p0 p1
    let ac := dot p0 p2
    let bb := dot p1 p1
    let bc := dot p1 p2
    let cc := dot p2 p2
    let sep2 := decide (aa > rr) && decide (ab > aa) && decide (ac > aa)
    let sep3 := decide (bb > rr) && decide (ab > bb) && decide (bc > bb)
    let sep4 := decide (cc > rr) && decide (ac > cc) && decide (bc > cc)
    if sep2 || sep3 || sep4 then false
    else
      let AB : Vec := fun i => p1 i - p0 i
      let BC : Vec := fun i => p2 i - p1 i
      let CA : Vec := fun i => p0 i - p2 i
      let d1 := ab - aa
      let d2 := bc - bb
      let d3 := ac - cc
      let e1 := dot AB AB
      let e2 := dot BC BC
      let e3 := dot CA CA
      let Q1 : Vec := fun i => p0 i * e1 - d1 * AB i
      let Q2 : Vec := fun i => p1 i * e2 - d2 * BC i
      let Q3 : Vec := fun i => p2 i * e3 - d3 * CA i
      let QC : Vec := fun i => p2 i * e1 - Q1 i
      let QA : Vec := fun i => p0 i * e2 - Q2 i
      let QB : Vec := fun i => p1 i * e3 - Q3 i
      let sep5 := decide (dot Q1 Q1 > rr * e1 * e1) && decide (dot Q1 QC > 0)
      let sep6 := decide (dot Q2 Q2 > rr * e2 * e2) && decide (dot Q2 QA > 0)
      let sep7 := decide (dot Q3 Q3 > rr * e3 * e3) && decide (dot Q3 QB > 0)
      if sep5 || sep6 || sep7 then false else true

/-- `contains(outer, inner)`: `bounding_sphere.h` 616-629. -/
def containsSphere (outer inner : Sphere) : Bool :=
  let distSquared := distanceSquared outer.center inner.center
  let outerSquared := outer.radius * outer.radius
  let innerSquared := inner.radius * inner.radius
  if distSquared > outerSquared + innerSquared then false
  else decide (outerSquared ≥ distSquared + innerSquared)

/-- `intersects(bs1, bs2)`: `bounding_sphere.h` 638-645; the collision testers' (784-795) compute the same. -/
def intersectsSphere (s1 s2 : Sphere) : Bool :=
  decide (distanceSquared s1.center s2.center ≤ s1.radius * s1.radius + s2.radius * s2.radius)

end

end Verif.Model.Sphere
