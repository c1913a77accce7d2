import Mathlib.Analysis.SpecialFunctions.Trigonometric.Arctan
import Verif.Model.Vector

/-!
# Model of the transformation matrices (`include/muu/matrix.h` 160-1250, 3140-3350)

Exact arithmetic, as in `Verif/Model/Matrix.lean`.  The size constraints of the C++ templates (`impl/matrix_base.h`
232-322) become hypotheses of the theorems or concrete indices.
-/

namespace Verif.Model.Transform

open Verif.Model.Matrix Verif.Model.Vector

variable {K : Type*}

section ring
variable [CommRing K]

/-- Assignment through `m.get<r, c>()`: `matrix.h` 2020-2075. -/
def setAt {R C : ℕ} (m : Mat K R C) (r c : ℕ) (x : K) : Mat K R C :=
  fun i j => if i.1 = r ∧ j.1 = c then x else m i j

/-- `from_2d_scale(x, y)`: `matrix.h` 166-175. -/
def from2dScale (R C : ℕ) (x y : K) : Mat K R C := setAt (setAt (identity R C) 0 0 x) 1 1 y

/-- `from_3d_scale(x, y, z)`: `matrix.h` 197-209. -/
def from3dScale (R C : ℕ) (x y z : K) : Mat K R C := setAt (setAt (setAt (identity R C) 0 0 x) 1 1 y) 2 2 z

/-- `from_2d_translation(x, y)`: `matrix.h` 272-281; the translation column is the last one (144-147). -/
def from2dTranslation (R C : ℕ) (x y : K) : Mat K R C := setAt (setAt (identity R C) 0 (C - 1) x) 1 (C - 1) y

/-- `from_3d_translation(x, y, z)`: `matrix.h` 304-316. -/
def from3dTranslation (R C : ℕ) (x y z : K) : Mat K R C :=
  setAt (setAt (setAt (identity R C) 0 (C - 1) x) 1 (C - 1) y) 2 (C - 1) z

/-- The enlarging, truncating constructor: `matrix.h` 1586-1590; components not covered are zero. -/
def resize {R C : ℕ} (R' C' : ℕ) (m : Mat K R C) : Mat K R' C' :=
  fun i j => if h : i.1 < R ∧ j.1 < C then m ⟨i.1, h.1⟩ ⟨j.1, h.2⟩ else 0

/-- `from_3d_rotation(rot)`: `matrix.h` 444-471, for source sizes `R`, `C` and destination sizes `R'`, `C'`. -/
def from3dRotation {R C : ℕ} (R' C' : ℕ) (rot : Mat K R C) : Mat K R' C' :=
  if R = R' ∧ C = C' ∧ R = 3 ∧ C = 3 then resize R' C' rot
  else
    let out := resize R' C' rot
    let out := if C ≥ 4 ∧ C' = 4 then (fun i j => if j.1 = C' - 1 then 0 else out i j) else out
    let out := if R ≥ 4 ∧ R' = 4 then setAt (setAt (setAt out 3 0 0) 3 1 0) 3 2 0 else out
    if R' = 4 ∧ C' = 4 then setAt out 3 3 1 else out

/-- `from_2d_rotation(rot)`: `matrix.h` 387-415. -/
def from2dRotation {R C : ℕ} (R' C' : ℕ) (rot : Mat K R C) : Mat K R' C' :=
  if R = R' ∧ C = C' ∧ R = 2 ∧ C = 2 then resize R' C' rot
  else
    let out := resize R' C' rot
    let out := if C ≥ 3 ∧ C' = 3 then (fun i j => if j.1 = C' - 1 then 0 else out i j) else out
    let out := if R ≥ 3 ∧ R' = 3 then setAt (setAt out 2 0 0) 2 1 0 else out
    if R' = 3 ∧ C' = 3 then setAt out 2 2 1 else out

/-- The constructor from three columns of three components: `matrix.h` 1616-1660; missing components are zero. -/
def ofColumns3 (R C : ℕ) (x y z : Fin 3 → K) : Mat K R C :=
  fun i j => if h : i.1 < 3 ∧ j.1 < 3 then ![x, y, z] ⟨j.1, h.2⟩ ⟨i.1, h.1⟩ else 0

/-- `from_axes(x, y, z)`: `matrix.h` 688-704. -/
def fromAxes (R C : ℕ) (x y z : Fin 3 → K) : Mat K R C :=
  if R ≥ 4 ∧ C ≥ 4 then setAt (ofColumns3 R C x y z) 3 3 1 else ofColumns3 R C x y z

/-- The first three components of a column, e.g. `vector<Scalar, 3>{ m.x_column() }`: `matrix.h` 1230-1241. -/
def column3 {R C : ℕ} (hR : 3 ≤ R) (m : Mat K R C) (j : Fin C) : Fin 3 → K := fun i => m (Fin.castLE hR i) j

/-- `transform_position` for `3x3`: `matrix.h` 733-738. -/
def transformPosition33 (m : Mat K 3 3) (p : Fin 3 → K) : Fin 3 → K := mulVec m p

/-- `transform_without_translating`: `matrix.h` 805-826. -/
def transformWithoutTranslating {R C : ℕ} (hR : 3 ≤ R) (hC : 3 ≤ C) (m : Mat K R C) (d : Fin 3 → K) : Fin 3 → K :=
  let g : Fin 3 → Fin 3 → K := fun i j => m (Fin.castLE hR i) (Fin.castLE hC j)
  ![g 0 0 * d 0 + g 0 1 * d 1 + g 0 2 * d 2,
    g 1 0 * d 0 + g 1 1 * d 1 + g 1 2 * d 2,
    g 2 0 * d 0 + g 2 1 * d 1 + g 2 2 * d 2]

/-- `make_rotation_matrix`: `matrix.h` 3138-3161. -/
def makeRotationMatrix (R C : ℕ) (xx yx zx xy yy zy xz yz zz : K) : Mat K R C :=
  let m := identity R C
  let m := setAt m 0 0 xx
  let m := setAt m 1 0 xy
  let m := setAt m 2 0 xz
  let m := setAt m 0 1 yx
  let m := setAt m 1 1 yy
  let m := setAt m 2 1 yz
  let m := setAt m 0 2 zx
  let m := setAt m 1 2 zy
  setAt m 2 2 zz

/-- `rotation_matrix_constants::right`: `matrix.h` 3296-3306. -/
def rotRight (R C : ℕ) : Mat K R C := makeRotationMatrix R C 0 0 (-1) 0 1 0 1 0 0
/-- `up`: `matrix.h` 3308-3318. -/
def rotUp (R C : ℕ) : Mat K R C := makeRotationMatrix R C 1 0 0 0 0 (-1) 0 1 0
/-- `backward`: `matrix.h` 3320-3330. -/
def rotBackward (R C : ℕ) : Mat K R C := makeRotationMatrix R C (-1) 0 0 0 1 0 0 0 (-1)
/-- `left`: `matrix.h` 3332-3342. -/
def rotLeft (R C : ℕ) : Mat K R C := makeRotationMatrix R C 0 0 1 0 1 0 (-1) 0 0
/-- `down`: `matrix.h` 3344-3354. -/
def rotDown (R C : ℕ) : Mat K R C := makeRotationMatrix R C 1 0 0 0 0 1 0 (-1) 0

end ring

section field
variable [Field K]

/-- `transform_position` for `3x4`: `matrix.h` 739-765 with `inv_w = 1`. -/
def transformPosition34 (m : Mat K 3 4) (p : Fin 3 → K) : Fin 3 → K :=
  let invW : K := 1
  ![invW * (m 0 0 * p 0 + m 0 1 * p 1 + m 0 2 * p 2 + m 0 3),
    invW * (m 1 0 * p 0 + m 1 1 * p 1 + m 1 2 * p 2 + m 1 3),
    invW * (m 2 0 * p 0 + m 2 1 * p 1 + m 2 2 * p 2 + m 2 3)]

/-- The divisor `w` of `transform_position` for `4x4`: `matrix.h` 745-748. -/
def transformW (m : Mat K 4 4) (p : Fin 3 → K) : K := m 3 0 * p 0 + m 3 1 * p 1 + m 3 2 * p 2 + m 3 3

/-- `transform_position` for `4x4`: `matrix.h` 739-765.  Division by zero is `0` here; the theorems assume the divisor
is not zero. -/
def transformPosition44 (m : Mat K 4 4) (p : Fin 3 → K) : Fin 3 → K :=
  let invW : K := 1 / transformW m p
  ![invW * (m 0 0 * p 0 + m 0 1 * p 1 + m 0 2 * p 2 + m 0 3),
    invW * (m 1 0 * p 0 + m 1 1 * p 1 + m 1 2 * p 2 + m 1 3),
    invW * (m 2 0 * p 0 + m 2 1 * p 1 + m 2 2 * p 2 + m 2 3)]

end field

noncomputable section real

/-- `transform_direction`: `matrix.h` 845-856. -/
def transformDirection {R C : ℕ} (hR : 3 ≤ R) (hC : 3 ≤ C) (m : Mat ℝ R C) (d : Fin 3 → ℝ) : Fin 3 → ℝ :=
  fun i => length d * normalizeV (transformWithoutTranslating hR hC m d) i

/-- `extract_2d_scale`: `matrix.h` 874-880. -/
def extract2dScale {R C : ℕ} (hR : 2 ≤ R) (hC : 2 ≤ C) (m : Mat ℝ R C) : Fin 2 → ℝ :=
  let g : Fin 2 → Fin 2 → ℝ := fun i j => m (Fin.castLE hR i) (Fin.castLE hC j)
  ![length ![g 0 0, g 1 0], length ![g 0 1, g 1 1]]

/-- `extract_3d_scale`: `matrix.h` 898-909. -/
def extract3dScale {R C : ℕ} (hR : 3 ≤ R) (hC : 3 ≤ C) (m : Mat ℝ R C) : Fin 3 → ℝ :=
  let g : Fin 3 → Fin 3 → ℝ := fun i j => m (Fin.castLE hR i) (Fin.castLE hC j)
  ![length ![g 0 0, g 1 0, g 2 0], length ![g 0 1, g 1 1, g 2 1], length ![g 0 2, g 1 2, g 2 2]]

/-- `from_3d_direction`: `matrix.h` 473-507.  `eps` is the tolerance of `approx_equal` (`math.h` 451-477), which tests
`|b - a| < eps`. -/
def from3dDirection (R C : ℕ) (eps : ℝ) (dir : Fin 3 → ℝ) : Mat ℝ R C :=
  let z : Fin 3 → ℝ := fun i => -dir i
  let y : Fin 3 → ℝ :=
    if |(-1) - dir 1| < eps then ![0, 0, -1]
    else if |1 - dir 1| < eps then ![0, 0, 1]
    else ![0, 1, 0]
  let x := normalizeV (cross y z)
  let y := normalizeV (cross z x)
  fromAxes R C x y z

/-- `column_normalize<3>`: `matrix.h` 1121-1155; with three rows it is `vector::normalize`, with four the first three
components are divided by their length. -/
def columnNormalize (v : Fin 3 → ℝ) : Fin 3 → ℝ :=
  let invLen := 1 / Real.sqrt (v 0 * v 0 + v 1 * v 1 + v 2 * v 2)
  ![v 0 * invLen, v 1 * invLen, v 2 * invLen]

/-- `subtract_dot_mult`: `matrix.h` 1182-1190. -/
def subtractDotMult (out c1 c2 : Fin 3 → ℝ) : Fin 3 → ℝ :=
  let d := c1 0 * c2 0 + c1 1 * c2 1 + c1 2 * c2 2
  ![out 0 - d * c2 0, out 1 - d * c2 1, out 2 - d * c2 2]

/-- The three axes computed by `orthonormalize`: `matrix.h` 1176-1199. -/
def orthoAxes (m0 m1 m2 : Fin 3 → ℝ) : (Fin 3 → ℝ) × (Fin 3 → ℝ) × (Fin 3 → ℝ) :=
  let o0 := columnNormalize m0
  let o1 := columnNormalize (subtractDotMult m1 m1 o0)
  let o2 := subtractDotMult m2 m2 o0
  let o2 := columnNormalize (subtractDotMult o2 o2 o1)
  (o0, o1, o2)

/-- `orthonormalize`: `matrix.h` 1158-1202; the components outside the upper-left `3x3` part are left as they are. -/
def orthonormalize {R C : ℕ} (hR : 3 ≤ R) (hC : 3 ≤ C) (m : Mat ℝ R C) : Mat ℝ R C :=
  let c := orthoAxes (column3 hR m (Fin.castLE hC 0)) (column3 hR m (Fin.castLE hC 1)) (column3 hR m (Fin.castLE hC 2))
  fun i j => if h : i.1 < 3 ∧ j.1 < 3 then ![c.1, c.2.1, c.2.2] ⟨j.1, h.2⟩ ⟨i.1, h.1⟩ else m i j

/-- `orthonormalized`: `matrix.h` 1211-1241; `epsN` is the tolerance of `vector::normalized`, `eps` that of the dot
products (`approx_zero` is `|x| < eps`, `math.h` 529-600). -/
def orthonormalized {R C : ℕ} (hR : 3 ≤ R) (hC : 3 ≤ C) (epsN eps : ℝ) (m : Mat ℝ R C) : Prop :=
  let x := column3 hR m (Fin.castLE hC 0)
  let y := column3 hR m (Fin.castLE hC 1)
  let z := column3 hR m (Fin.castLE hC 2)
  |1 - lengthSquared x| < epsN ∧ |1 - lengthSquared y| < epsN ∧ |1 - lengthSquared z| < epsN ∧
    |dot x y| < eps ∧ |dot x z| < eps ∧ |dot y z| < eps

/-- `math_apis`: which API, which handedness : `matrix.h` 27-41. -/
structure Mode where
  opengl : Bool
  leftHanded : Bool

/-- The default `Mode`: `directx | right_handed`, `matrix.h` 925 and 1009. -/
def Mode.default : Mode := ⟨false, false⟩

/-- `perspective_projection<Mode>(vertical_fov, aspect_ratio, near_clip, far_clip)`: `matrix.h` 925-1007. -/
def perspective (mode : Mode) (fov aspect near far : ℝ) : Mat ℝ 4 4 :=
  let b := 1 / Real.tan (fov / 2)
  let a := b / aspect
  if mode.opengl then
    let c := -(far + near) / (far - near)
    if mode.leftHanded then
      let e := (2 * far * near) / (far - near)
      ofScalars44 a 0 0 0 0 b 0 0 0 0 c e 0 0 1 0
    else
      let e := ((-2) * far * near) / (far - near)
      ofScalars44 a 0 0 0 0 b 0 0 0 0 c e 0 0 (-1) 0
  else
    let c := far / (near - far)
    if mode.leftHanded then
      let e := -near * far / (far - near)
      ofScalars44 a 0 0 0 0 b 0 0 0 0 c e 0 0 1 0
    else
      let e := near * far / (near - far)
      ofScalars44 a 0 0 0 0 b 0 0 0 0 c e 0 0 (-1) 0

/-- `perspective_projection<Mode>(vertical_fov, screen_size, near_clip, far_clip)`: `matrix.h` 1009-1017.  The template
argument is not passed on, so the call resolves to the default mode. -/
def perspectiveScreen (_mode : Mode) (fov : ℝ) (screen : Fin 2 → ℝ) (near far : ℝ) : Mat ℝ 4 4 :=
  perspective Mode.default fov (screen 0 / screen 1) near far

end real

end Verif.Model.Transform
