import Mathlib.Analysis.SpecialFunctions.Complex.Arg
import Verif.Model.Transform

/-!
# Model of `muu::quaternion` (`include/muu/quaternion.h`) and of its conversions

Exact arithmetic, as in `Verif/Model/Vector.lean`; the promotion of `half` to `float` is not modelled.  `muu::atan2(y, x)`
(`math.h` 1963-2060) is modelled by the argument of the complex number `x + y i`, in `(-π, π]`; both are `0` for
`y = 0`, `x ≥ 0` and `π` for `y = 0`, `x < 0` (negative zero does not exist here).
-/

namespace Verif.Model.Quat

open Verif.Model.Matrix Verif.Model.Vector Verif.Model.Transform

variable {K : Type*}

/-- `quaternion`: `quaternion.h` 23-35 (scalar and vector part). -/
@[ext] structure Quat (K : Type*) where
  s : K
  v : Fin 3 → K

section ring
variable [CommRing K]

/-- `constants::identity`: `quaternion.h` 1092-1093. -/
def identityQ : Quat K := ⟨1, ![0, 0, 0]⟩

/-- `dot`: `quaternion.h` 476-489. -/
def dotQ (p q : Quat K) : K := p.s * q.s + dot p.v q.v

/-- `conjugate`: `quaternion.h` 571-574. -/
def conjugate (q : Quat K) : Quat K := ⟨q.s, fun i => -q.v i⟩

/-- `multiply`: `quaternion.h` 846-862. -/
def multiply (p q : Quat K) : Quat K :=
  ⟨p.s * q.s - dot p.v q.v, fun i => p.s * q.v i + q.s * p.v i + cross p.v q.v i⟩

/-- `rotate_vector`: `quaternion.h` 864-882; both orders of `operator*` call it (903-918). -/
def rotateVector (q : Quat K) (r : Fin 3 → K) : Fin 3 → K :=
  let t : Fin 3 → K := fun i => 2 * cross q.v r i
  let u := cross q.v t
  let t : Fin 3 → K := fun i => t i * q.s
  ![r 0 + t 0 + u 0, r 1 + t 1 + u 1, r 2 + t 2 + u 2]

/-- `matrix::from_quaternion`: `matrix.h` 511-549. -/
def matrixFromQuaternion (R C : ℕ) (q : Quat K) : Mat K R C :=
  let x2 := q.v 0 * q.v 0
  let y2 := q.v 1 * q.v 1
  let z2 := q.v 2 * q.v 2
  let sx := q.s * q.v 0
  let sy := q.s * q.v 1
  let sz := q.s * q.v 2
  let xz := q.v 0 * q.v 2
  let yz := q.v 1 * q.v 2
  let xy := q.v 0 * q.v 1
  let out := ofColumns3 R C
    ![1 - 2 * (y2 + z2), 2 * (xy + sz), 2 * (xz - sy)]
    ![2 * (xy - sz), 1 - 2 * (x2 + z2), 2 * (sx + yz)]
    ![2 * (sy + xz), 2 * (yz - sx), 1 - 2 * (x2 + y2)]
  if R = 4 ∧ C = 4 then setAt out 3 3 1 else out

end ring

noncomputable section real

/-- `muu::atan2`: `math.h` 1963-2060. -/
def atan2 (y x : ℝ) : ℝ := Complex.arg ⟨x, y⟩

/-- `normalize`: `quaternion.h` 508-521. -/
def normalizeQ (q : Quat ℝ) : Quat ℝ :=
  let invLength := 1 / Real.sqrt (dotQ q q)
  ⟨q.s * invLength, fun i => q.v i * invLength⟩

/-- `normalized`: `quaternion.h` 532-552; `epsilon` depends on the precision of the scalar type. -/
def normalizedQ (epsilon : ℝ) (q : Quat ℝ) : Prop := |1 - dotQ q q| < epsilon

/-- `axis_angle`: `axis_angle.h` 20-30. -/
structure AxisAngle where
  axis : Fin 3 → ℝ
  angle : ℝ

/-- `euler_angles`: `euler_angles.h` 20-31. -/
structure Euler where
  yaw : ℝ
  pitch : ℝ
  roll : ℝ

/-- `from_axis_angle`: `quaternion.h` 594-622. -/
def fromAxisAngle (aa : AxisAngle) : Quat ℝ :=
  let angle := aa.angle * (1 / 2)
  ⟨Real.cos angle, fun i => Real.sin angle * aa.axis i⟩

/-- `to_axis_angle(quat, shortest_path)`: `quaternion.h` 632-665. -/
def toAxisAngle (q : Quat ℝ) (shortestPath : Bool) : AxisAngle :=
  let len := length q.v
  let correction : ℝ := if shortestPath = true ∧ q.s < 0 then -1 else 1
  if len = 0 then ⟨![1, 0, 0], 2 * atan2 len (q.s * correction)⟩
  else ⟨![(q.v 0 * correction) / len, (q.v 1 * correction) / len, (q.v 2 * correction) / len],
    2 * atan2 len (q.s * correction)⟩

/-- `from_euler`: `quaternion.h` 686-733. -/
def fromEuler (e : Euler) : Quat ℝ :=
  let yaw := -e.yaw
  let pitch := e.pitch
  let roll := -e.roll
  let c1 := Real.cos (pitch * (1 / 2))
  let s1 := Real.sin (pitch * (1 / 2))
  let c2 := Real.cos (yaw * (1 / 2))
  let s2 := Real.sin (yaw * (1 / 2))
  let c3 := Real.cos (roll * (1 / 2))
  let s3 := Real.sin (roll * (1 / 2))
  ⟨c1 * c2 * c3 - s1 * s2 * s3,
    ![s1 * c2 * c3 - c1 * s2 * s3, c1 * s2 * c3 + s1 * c2 * s3, c1 * c2 * s3 + s1 * s2 * c3]⟩

/-- The pole threshold of `to_euler`: `quaternion.h` 762.  (The decimal literal is taken exactly.) -/
def threshold : ℝ := 49995 / 100000

/-- The quantity `to_euler` compares with the threshold: `quaternion.h` 756. -/
def eulerTest (q : Quat ℝ) : ℝ := q.v 1 * q.v 2 + q.s * q.v 0

/-- `to_euler`: `quaternion.h` 740-788. -/
def toEuler (q : Quat ℝ) : Euler :=
  let sqw := q.s * q.s
  let sqx := q.v 0 * q.v 0
  let sqy := q.v 1 * q.v 1
  let sqz := q.v 2 * q.v 2
  let test := eulerTest q
  let correction := sqx + sqy + sqz + sqw
  if threshold * correction < test then ⟨(-2) * atan2 (q.v 2) q.s, Real.pi / 2, 0⟩
  else if test < -threshold * correction then ⟨2 * atan2 (q.v 2) q.s, -(Real.pi / 2), 0⟩
  else
    ⟨-atan2 ((-2) * (q.v 0 * q.v 2 - q.s * q.v 1)) (sqw - sqx - sqy + sqz),
      Real.arcsin (2 * test / correction),
      -atan2 ((-2) * (q.v 0 * q.v 1 - q.s * q.v 2)) (sqw - sqx + sqy - sqz)⟩

/-- `from_rotation(from, to)`: `quaternion.h` 803-827; `eps` is the tolerance of `approx_equal` (`math.h` 451-477). -/
def fromRotation (eps : ℝ) (a b : Fin 3 → ℝ) : Quat ℝ :=
  let kCosTheta := dot a b
  let k := Real.sqrt (lengthSquared a * lengthSquared a)
  if |(-1) - kCosTheta / k| < eps then ⟨0, normalizeV (orthogonal a)⟩
  else normalizeQ ⟨kCosTheta + k, cross a b⟩

/-- `operator*(quaternion, scalar)`: `quaternion.h` 921-939. -/
def scale (q : Quat ℝ) (x : ℝ) : Quat ℝ :=
  let aa := toAxisAngle q true
  let angle := aa.angle * (x * (1 / 2))
  let axis := normalizeV aa.axis
  ⟨Real.cos angle, fun i => Real.sin angle * axis i⟩

/-- `slerp`: `quaternion.h` 976-1018. -/
def slerp (start finish : Quat ℝ) (alpha : ℝ) : Quat ℝ :=
  let dot := dotQ start finish
  let correction : ℝ := if dot < 0 then -1 else 1
  let dot := if dot < 0 then -dot else dot
  if dot ≥ 9995 / 10000 then
    let invAlpha := 1 - alpha
    normalizeQ ⟨start.s * invAlpha + finish.s * alpha * correction,
      fun i => start.v i * invAlpha + finish.v i * alpha * correction⟩
  else
    let theta0 := Real.arccos dot
    let theta := theta0 * alpha
    let sinThetaDiv := Real.sin theta / Real.sin theta0
    let s0 := Real.cos theta - dot * sinThetaDiv
    let s1 := sinThetaDiv
    ⟨start.s * s0 + finish.s * s1 * correction, fun i => start.v i * s0 + finish.v i * s1 * correction⟩

/-- `quat_from_rotation_matrix`: `impl/quaternion_x_matrix.h` 17-75, for matrices of 3x3, 3x4 and 4x4. -/
def fromRotationMatrix {R C : ℕ} (hR : 3 ≤ R) (hC : 3 ≤ C) (m : Mat ℝ R C) : Quat ℝ :=
  let g : Fin 3 → Fin 3 → ℝ := fun i j => m (Fin.castLE hR i) (Fin.castLE hC j)
  let trace := g 0 0 + g 1 1 + g 2 2
  if 0 < trace then
    let s := 2 * Real.sqrt (trace + 1)
    let invS := 1 / s
    ⟨1 / 4 * s, ![(g 2 1 - g 1 2) * invS, (g 0 2 - g 2 0) * invS, (g 1 0 - g 0 1) * invS]⟩
  else if g 0 0 > g 1 1 ∧ g 0 0 > g 2 2 then
    let s := 2 * Real.sqrt (g 0 0 - g 1 1 - g 2 2 + 1)
    let invS := 1 / s
    ⟨(g 2 1 - g 1 2) * invS, ![1 / 4 * s, (g 0 1 + g 1 0) * invS, (g 0 2 + g 2 0) * invS]⟩
  else if g 1 1 > g 2 2 then
    let s := 2 * Real.sqrt (g 1 1 - g 0 0 - g 2 2 + 1)
    let invS := 1 / s
    ⟨(g 0 2 - g 2 0) * invS, ![(g 0 1 + g 1 0) * invS, 1 / 4 * s, (g 2 1 + g 1 2) * invS]⟩
  else
    let s := 2 * Real.sqrt (g 2 2 - g 0 0 - g 1 1 + 1)
    let invS := 1 / s
    ⟨(g 1 0 - g 0 1) * invS, ![(g 0 2 + g 2 0) * invS, (g 2 1 + g 1 2) * invS, 1 / 4 * s]⟩

/-- `matrix::from_axis_angle`: `matrix.h` 551-573. -/
def matrixFromAxisAngle (R C : ℕ) (aa : AxisAngle) : Mat ℝ R C := matrixFromQuaternion R C (fromAxisAngle aa)

/-- `matrix::from_euler`: `matrix.h` 575-601. -/
def matrixFromEuler (R C : ℕ) (e : Euler) : Mat ℝ R C := matrixFromQuaternion R C (fromEuler e)

end real

end Verif.Model.Quat
