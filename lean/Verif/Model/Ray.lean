import Verif.Model.Boxes
import Mathlib.Data.EReal.Operations

/-!
# Model of rays
(`include/muu/ray.h`, `impl/geometry_common.h` 970-1122, `impl/ray_x_*.h`)

Exact arithmetic over the real numbers, with infinities and NaN where the code divides by components that may be zero.
`default_epsilon` is a parameter.
-/

namespace Verif.Model.Ray

open Verif.Model.Matrix Verif.Model.Vector Verif.Model.Geometry Verif.Model.Boxes

noncomputable section

/-- `storage_base<ray>`: `geometry_common.h` 978-983. -/
structure Ray where
  origin : Vec
  direction : Vec

/-- `at`: `ray.h` 274-279. -/
def Ray.at (r : Ray) (distance : ℝ) : Vec := fun i => r.origin i + r.direction i * distance

/-- `bounce`: `ray.h` 310-316. -/
def Ray.bounce (r : Ray) (distance : ℝ) (dir : Vec) : Ray := ⟨r.at distance, dir⟩

/-- `hits_plane`: `geometry_common.h` 1002-1023.  With `nd = 0` the division is `0 / 0`, and the comparison with NaN is false. -/
def hitsPlane (r : Ray) (p : Plane) : Option ℝ :=
  let nd := dot r.direction p.normal
  let signedDist := p.signedDistance r.origin
  if (signedDist > 0 ∧ nd ≥ 0) ∨ (signedDist < 0 ∧ nd ≤ 0) then none
  else if nd = 0 then none
  else
    let pn := dot r.origin p.normal
    let hitDistance := (-p.d - pn) / nd
    if hitDistance ≥ 0 then some hitDistance else none

/-- `hits_triangle`: `geometry_common.h` 1025-1058. -/
def hitsTriangle (epsilon : ℝ) (r : Ray) (p0 p1 p2 : Vec) : Option ℝ :=
  let v0v1 : Vec := fun i => p1 i - p0 i
  let v0v2 : Vec := fun i => p2 i - p0 i
  let pvec := cross r.direction v0v2
  let det := dot v0v1 pvec
  if |det| < epsilon then none
  else
    let invDet := 1 / det
    let tvec : Vec := fun i => r.origin i - p0 i
    let u := dot tvec pvec * invDet
    if u < 0 ∨ u > 1 then none
    else
      let qvec := cross tvec v0v1
      let v := dot r.direction qvec * invDet
      if v < 0 ∨ u + v > 1 then none else some (dot v0v2 qvec * invDet)

/-- `hits_sphere`: `geometry_common.h` 1060-1094. -/
def hitsSphere (epsilon : ℝ) (r : Ray) (s : Sphere) : Option ℝ :=
  let e : Vec := fun i => s.center i - r.origin i
  let a := dot e r.direction
  if a < 0 then none
  else
    let e2 := lengthSquared e
    let r2 := s.radius * s.radius
    let a2 := a * a
    if r2 - e2 + a2 < epsilon then none
    else
      let b := Real.sqrt (e2 - a2)
      let f := Real.sqrt (r2 - b * b)
      if e2 < r2 then some (a + f) else some (a - f)

/-- A floating-point value up to rounding: NaN, or an extended real. -/
abbrev XR := Option EReal

/-- `<` on floating-point values: false when a side is NaN. -/
def XR.lt : XR → XR → Bool
  | some a, some b => decide (a < b)
  | _, _ => false

/-- Division of real numbers with the results IEEE 754 prescribes for a zero divisor; `neg` is the sign of that zero. -/
def xdiv (neg : Bool) (x y : ℝ) : XR :=
  if y ≠ 0 then some ((x / y : ℝ) : EReal)
  else if x = 0 then none
  else if (0 < x) ↔ (neg = false) then some ⊤ else some ⊥

/-- `muu::min` of two values: `core_utils.h` 47-64. -/
def xmin (a b : XR) : XR := if XR.lt a b then a else b

/-- `muu::max` of two values: `core_utils.h` 71-88. -/
def xmax (a b : XR) : XR := if XR.lt a b then b else a

/-- `hits_aabb_min_max`: `geometry_common.h` 1096-1117.  `neg` are the signs of the zeros among the components of the direction.
The three-argument `min` and `max` are `core_utils.h` 59-62, 83-86. -/
def hitsMinMax (neg : Fin 3 → Bool) (r : Ray) (lo hi : Vec) : Option XR :=
  let t (i : Fin 3) : XR × XR :=
    (xdiv (neg i) (lo i - r.origin i) (r.direction i), xdiv (neg i) (hi i - r.origin i) (r.direction i))
  let tmin := xmax (xmax (xmin (t 0).1 (t 0).2) (xmin (t 1).1 (t 1).2)) (xmin (t 2).1 (t 2).2)
  let tmax := xmin (xmin (xmax (t 0).1 (t 0).2) (xmax (t 1).1 (t 1).2)) (xmax (t 2).1 (t 2).2)
  if XR.lt tmax (some 0) || XR.lt tmax tmin then none
  else some (if XR.lt tmin (some 0) then tmax else tmin)

/-- `hits_aabb`: `geometry_common.h` 1119-1126, `impl/ray_x_bounding_box.h` 20-27. -/
def hitsBox (neg : Fin 3 → Bool) (r : Ray) (b : Box) : Option XR :=
  hitsMinMax neg r (fun i => b.center i - b.extents i) (fun i => b.center i + b.extents i)

/-- `infinity_or_nan` of one scalar. -/
def XR.infinityOrNan : XR → Bool
  | none => true
  | some x => decide (x = ⊤ ∨ x = ⊥)

/-- `ray::infinity_or_nan`: `ray.h` 153-159. -/
def infinityOrNan (origin direction : Fin 3 → XR) : Bool :=
  (List.finRange 3).any (fun i => XR.infinityOrNan (origin i)) && (List.finRange 3).any (fun i => XR.infinityOrNan (direction i))

end

end Verif.Model.Ray
