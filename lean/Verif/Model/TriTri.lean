import Verif.Model.Geometry

/-!
# Model of the intersection of two triangles (`include/muu/impl/tri_tri_intersection.h`, `triangle.h` 559-580)

Exact arithmetic over the real numbers; `EPSILON` is a parameter.
-/

namespace Verif.Model.TriTri

open Verif.Model.Vector Verif.Model.Geometry

noncomputable section

/-- `if (abs(x) < EPSILON) x = 0`: lines 241-246, 260-265, 397-402, 417-422. -/
def snap (eps x : ℝ) : ℝ := if |x| < eps then 0 else x

/-- `cross(V1 - V0, V2 - V0)`: lines 233-235, 252-254, 389-391, 409-411. -/
def normal (v0 v1 v2 : Vec) : Vec := cross (fun i => v1 i - v0 i) (fun i => v2 i - v0 i)

/-- `dot(N, U) + d` with `d = -dot(N, V0)`, snapped: lines 236-246, 255-265, 392-402, 412-422. -/
def side (eps : ℝ) (n v0 u : Vec) : ℝ := snap eps (dot n u + -dot n v0)

/-- `MUU_TRITRI_EDGE_EDGE_TEST`: lines 60-86. -/
def edgeEdge (i0 i1 : Fin 3) (ax ay : ℝ) (v0 u0 u1 : Vec) : Bool :=
  let bx := u0 i0 - u1 i0
  let by_ := u0 i1 - u1 i1
  let cx := v0 i0 - u0 i0
  let cy := v0 i1 - u0 i1
  let f := ay * bx - ax * by_
  let d := by_ * cx - bx * cy
  if (f > 0 ∧ d ≥ 0 ∧ d ≤ f) ∨ (f < 0 ∧ d ≤ 0 ∧ d ≥ f) then
    let e := ax * cy - ay * cx
    if f > 0 then decide (e ≥ 0 ∧ e ≤ f) else decide (e ≤ 0 ∧ e ≥ f)
  else false

/-- `MUU_TRITRI_EDGE_AGAINST_TRI_EDGES`: lines 88-97. -/
def edgeAgainstTri (i0 i1 : Fin 3) (v0 v1 u0 u1 u2 : Vec) : Bool :=
  let ax := v1 i0 - v0 i0
  let ay := v1 i1 - v0 i1
  edgeEdge i0 i1 ax ay v0 u0 u1 || edgeEdge i0 i1 ax ay v0 u1 u2 || edgeEdge i0 i1 ax ay v0 u2 u0

/-- `MUU_TRITRI_POINT_IN_TRI`: lines 99-120. -/
def pointInTri (i0 i1 : Fin 3) (v0 u0 u1 u2 : Vec) : Bool :=
  let d (p q : Vec) : ℝ :=
    let a := q i1 - p i1
    let b := -(q i0 - p i0)
    let c := -a * p i0 - b * p i1
    a * v0 i0 + b * v0 i1 + c
  let d0 := d u0 u1
  let d1 := d u1 u2
  let d2 := d u2 u0
  decide (d0 * d1 > 0 ∧ d0 * d2 > 0)

/-- The two axes kept when projecting: lines 191-211. -/
def axes (n : Vec) : Fin 3 × Fin 3 :=
  if |n 0| > |n 1| then
    if |n 0| > |n 2| then (1, 2) else (0, 1)
  else if |n 2| > |n 1| then (0, 1) else (0, 2)

/-- `coplanar_tri_tri`: lines 182-223. -/
def coplanar (n v0 v1 v2 u0 u1 u2 : Vec) : Bool :=
  let i0 := (axes n).1
  let i1 := (axes n).2
  edgeAgainstTri i0 i1 v0 v1 u0 u1 u2 || edgeAgainstTri i0 i1 v1 v2 u0 u1 u2 || edgeAgainstTri i0 i1 v2 v0 u0 u1 u2 ||
    pointInTri i0 i1 v0 u0 u1 u2 || pointInTri i0 i1 u0 v0 v1 v2

/-- The axis along which the line of intersection advances fastest: lines 273-284, 430-441. -/
def longestAxis (d : Vec) : Fin 3 :=
  let m1 := if |d 1| > |d 0| then |d 1| else |d 0|
  if |d 2| > m1 then 2 else if |d 1| > |d 0| then 1 else 0

/-- The interval of a triangle on the line, as numerators and denominators. -/
structure Interval where
  a : ℝ
  b : ℝ
  c : ℝ
  x0 : ℝ
  x1 : ℝ

/-- `MUU_TRITRI_COMPUTE_INTERVALS`: lines 122-170.  `none` is the jump to `coplanar_tri_tri`. -/
def computeIntervals (vv0 vv1 vv2 d0 d1 d2 d0d1 d0d2 : ℝ) : Option Interval :=
  if d0d1 > 0 then some ⟨vv2, (vv0 - vv2) * d2, (vv1 - vv2) * d2, d2 - d0, d2 - d1⟩
  else if d0d2 > 0 then some ⟨vv1, (vv0 - vv1) * d1, (vv2 - vv1) * d1, d1 - d0, d1 - d2⟩
  else if d1 * d2 > 0 ∨ d0 ≠ 0 then some ⟨vv0, (vv1 - vv0) * d0, (vv2 - vv0) * d0, d0 - d1, d0 - d2⟩
  else if d1 ≠ 0 then some ⟨vv1, (vv0 - vv1) * d1, (vv2 - vv1) * d1, d1 - d0, d1 - d2⟩
  else if d2 ≠ 0 then some ⟨vv2, (vv0 - vv2) * d2, (vv1 - vv2) * d2, d2 - d0, d2 - d1⟩
  else none

/-- `MUU_TRITRI_SORT`: lines 33-43. -/
def sort (p : ℝ × ℝ) : ℝ × ℝ := if p.1 > p.2 then (p.2, p.1) else p

/-- `intersects(tri1, tri2)`: lines 225-316, 577-589. -/
def intersects (eps : ℝ) (v0 v1 v2 u0 u1 u2 : Vec) : Bool :=
  let n1 := normal v0 v1 v2
  let du0 := side eps n1 v0 u0
  let du1 := side eps n1 v0 u1
  let du2 := side eps n1 v0 u2
  if du0 * du1 > 0 ∧ du0 * du2 > 0 then false
  else
    let n2 := normal u0 u1 u2
    let dv0 := side eps n2 u0 v0
    let dv1 := side eps n2 u0 v1
    let dv2 := side eps n2 u0 v2
    if dv0 * dv1 > 0 ∧ dv0 * dv2 > 0 then false
    else
      let i := longestAxis (cross n1 n2)
      match computeIntervals (v0 i) (v1 i) (v2 i) dv0 dv1 dv2 (dv0 * dv1) (dv0 * dv2) with
      | none => coplanar n1 v0 v1 v2 u0 u1 u2
      | some s =>
        match computeIntervals (u0 i) (u1 i) (u2 i) du0 du1 du2 (du0 * du1) (du0 * du2) with
        | none => coplanar n1 v0 v1 v2 u0 u1 u2
        | some t =>
          let xx := s.x0 * s.x1
          let yy := t.x0 * t.x1
          let xxyy := xx * yy
          let p := sort (s.a * xxyy + s.b * s.x1 * yy, s.a * xxyy + s.c * s.x0 * yy)
          let q := sort (t.a * xxyy + t.b * xx * t.x1, t.a * xxyy + t.c * xx * t.x0)
          if p.2 < q.1 ∨ q.2 < p.1 then false else true

/-- The ends of the section of a triangle: coordinates along the axis, and points. -/
structure Section where
  isect0 : ℝ
  isect1 : ℝ
  point0 : Vec
  point1 : Vec

/-- `isect2`: lines 318-343.  The divisors are not zero when it is called (`Proofs/TriTri.lean`, `pivot_ne`). -/
def isect2 (vtx0 vtx1 vtx2 : Vec) (vv0 vv1 vv2 d0 d1 d2 : ℝ) : Section :=
  let tmp := d0 / (d0 - d1)
  let tmp' := d0 / (d0 - d2)
  ⟨vv0 + (vv1 - vv0) * tmp, vv0 + (vv2 - vv0) * tmp', fun i => tmp * (vtx1 i - vtx0 i) + vtx0 i,
    fun i => vtx0 i + tmp' * (vtx2 i - vtx0 i)⟩

/-- `compute_intervals_isectline`: lines 345-376.  `none` means that it returned `true` and left its outputs
uninitialised. -/
def computeSection (t0 t1 t2 : Vec) (vv0 vv1 vv2 d0 d1 d2 d0d1 d0d2 : ℝ) : Option Section :=
  if d0d1 > 0 then some (isect2 t2 t0 t1 vv2 vv0 vv1 d2 d0 d1)
  else if d0d2 > 0 then some (isect2 t1 t0 t2 vv1 vv0 vv2 d1 d0 d2)
  else if d1 * d2 > 0 ∨ d0 ≠ 0 then some (isect2 t0 t1 t2 vv0 vv1 vv2 d0 d1 d2)
  else if d1 ≠ 0 then some (isect2 t1 t0 t2 vv1 vv0 vv2 d1 d0 d2)
  else if d2 ≠ 0 then some (isect2 t2 t0 t1 vv2 vv0 vv1 d2 d0 d1)
  else none

/-- `MUU_TRITRI_SORT2`: lines 45-58; the last component is `smallest`. -/
def sort2 (a b : ℝ) : ℝ × ℝ × ℕ := if a > b then (b, a, 1) else (a, b, 0)

/-- The choice of the ends of the segment: lines 490-569. -/
def overlap (s t : Section) : Vec × Vec :=
  let (a0, a1, smallest1) := sort2 s.isect0 s.isect1
  let (b0, b1, smallest2) := sort2 t.isect0 t.isect1
  if b0 < a0 then
    (if smallest1 = 0 then s.point0 else s.point1,
      if b1 < a1 then if smallest2 = 0 then t.point1 else t.point0
      else if smallest1 = 0 then s.point1 else s.point0)
  else
    (if smallest2 = 0 then t.point0 else t.point1,
      if b1 > a1 then if smallest1 = 0 then s.point1 else s.point0
      else if smallest2 = 0 then t.point1 else t.point0)

/-- `intersects(tri1, tri2, seg)`: lines 378-572, 591-604.  The returned value and `seg`; `none` is undefined behaviour:
uninitialised variables are read. -/
def intersectsSeg (eps : ℝ) (v0 v1 v2 u0 u1 u2 : Vec) : Option (Bool × Option (Vec × Vec)) :=
  let n1 := normal v0 v1 v2
  let du0 := side eps n1 v0 u0
  let du1 := side eps n1 v0 u1
  let du2 := side eps n1 v0 u2
  if du0 * du1 > 0 ∧ du0 * du2 > 0 then some (false, none)
  else
    let n2 := normal u0 u1 u2
    let dv0 := side eps n2 u0 v0
    let dv1 := side eps n2 u0 v1
    let dv2 := side eps n2 u0 v2
    if dv0 * dv1 > 0 ∧ dv0 * dv2 > 0 then some (false, none)
    else
      let i := longestAxis (cross n1 n2)
      match computeSection v0 v1 v2 (v0 i) (v1 i) (v2 i) dv0 dv1 dv2 (dv0 * dv1) (dv0 * dv2) with
      | none => some (coplanar n1 v0 v1 v2 u0 u1 u2, none)
      | some s =>
        match computeSection u0 u1 u2 (u0 i) (u1 i) (u2 i) du0 du1 du2 (du0 * du1) (du0 * du2) with
        | none => none
        | some t =>
          let (a0, a1, _) := sort2 s.isect0 s.isect1
          let (b0, b1, _) := sort2 t.isect0 t.isect1
          if a1 < b0 ∨ b1 < a0 then some (false, none) else some (true, some (overlap s t))

end

end Verif.Model.TriTri
