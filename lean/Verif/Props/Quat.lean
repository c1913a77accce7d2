import Verif.Proofs.Quat
import Verif.Props.Transform

/-!
# C87-C92: quaternions

`toH` reads a `muu::quaternion` as one of Hamilton's quaternions (Mathlib's `Quaternion ℝ`); a *unit* quaternion is one
whose inner product with itself is `1`.  Rotations are specified by Rodrigues' formula in `Verif/Spec/Rotation.lean`.
-/

namespace Verif.Props.Quat

open Verif.Model.Matrix Verif.Model.Vector Verif.Model.Transform Verif.Model.Quat Verif.Spec.Rotation
open Verif.Proofs.Transform Verif.Props.Transform

/-- The quaternion as a member of Hamilton's algebra. -/
def toH (q : Quat ℝ) : Quaternion ℝ := ⟨q.s, q.v 0, q.v 1, q.v 2⟩

/-- A vector as a pure quaternion. -/
def pureH (r : Fin 3 → ℝ) : Quaternion ℝ := ⟨0, r 0, r 1, r 2⟩

@[simp] theorem toH_re (q : Quat ℝ) : (toH q).re = q.s := rfl
@[simp] theorem toH_imI (q : Quat ℝ) : (toH q).imI = q.v 0 := rfl
@[simp] theorem toH_imJ (q : Quat ℝ) : (toH q).imJ = q.v 1 := rfl
@[simp] theorem toH_imK (q : Quat ℝ) : (toH q).imK = q.v 2 := rfl
@[simp] theorem pureH_re (r : Fin 3 → ℝ) : (pureH r).re = 0 := rfl
@[simp] theorem pureH_imI (r : Fin 3 → ℝ) : (pureH r).imI = r 0 := rfl
@[simp] theorem pureH_imJ (r : Fin 3 → ℝ) : (pureH r).imJ = r 1 := rfl
@[simp] theorem pureH_imK (r : Fin 3 → ℝ) : (pureH r).imK = r 2 := rfl

/-- Length one, in Hamilton's algebra. -/
def Unit (q : Quat ℝ) : Prop := Quaternion.normSq (toH q) = 1

/-- The same rotation: equal or opposite. -/
def SameRotation (p q : Quat ℝ) : Prop := toH p = toH q ∨ toH p = -toH q

theorem unit_iff (q : Quat ℝ) : Unit q ↔ dotQ q q = 1 := by
  rw [Unit, dotQ_eq, Quaternion.normSq_def']
  constructor <;> intro h <;> simp only [toH] at * <;> linarith

theorem toH_inj {p q : Quat ℝ} (h : toH p = toH q) : p = q := by
  have h0 : p.s = q.s := congrArg (·.re) h
  have h1 : p.v 0 = q.v 0 := congrArg (·.imI) h
  have h2 : p.v 1 = q.v 1 := congrArg (·.imJ) h
  have h3 : p.v 2 = q.v 2 := congrArg (·.imK) h
  ext i
  · exact h0
  · fin_cases i <;> assumption

theorem same_of_rotM (p q : Quat ℝ) (hp : Unit p) (hq : Unit q) (h : rotM p = rotM q) : SameRotation p q := by
  rcases rotM_inj p q ((unit_iff p).mp hp) ((unit_iff q).mp hq) h with h | h
  · left; rw [h]
  · right; rw [h]; ext <;> simp

/-! ### C87: algebra and rotation of vectors -/

/-- C87: multiplication, conjugation and the identity are Hamilton's; `dot` is the Euclidean inner product. -/
theorem C87_algebra (p q : Quat ℝ) :
    toH (multiply p q) = toH p * toH q ∧ toH (conjugate q) = star (toH q) ∧ toH identityQ = 1 ∧
      dotQ p q = inner ℝ (toH p) (toH q) := by
  refine ⟨?_, ?_, ?_, ?_⟩
  · ext <;> simp [multiply, dot3, cross] <;> ring
  · ext <;> simp [conjugate]
  · ext <;> simp [identityQ] <;> rfl
  · rw [Quaternion.inner_def, dotQ_eq]; simp; ring

/-- C87: `normalize` divides a non-zero quaternion by its length; the result is a unit quaternion, and `normalized`
accepts it. -/
theorem C87_normalize (q : Quat ℝ) (hq : toH q ≠ 0) :
    Unit (normalizeQ q) ∧ toH q = ‖toH q‖ • toH (normalizeQ q) ∧ ∀ eps : ℝ, 0 < eps → normalizedQ eps (normalizeQ q) := by
  have hn : ‖toH q‖ = Real.sqrt (dotQ q q) := by
    rw [(C87_algebra q q).2.2.2, real_inner_self_eq_norm_sq, Real.sqrt_sq (norm_nonneg _)]
  have hpos : 0 < Real.sqrt (dotQ q q) := by rw [← hn]; exact norm_pos_iff.mpr hq
  have hs : Real.sqrt (dotQ q q) ^ 2 = dotQ q q := Real.sq_sqrt (Real.sqrt_pos.mp hpos).le
  have h1 : dotQ (normalizeQ q) (normalizeQ q) = 1 := by
    rw [dotQ_eq]
    simp only [normalizeQ]
    generalize Real.sqrt _ = l at *
    rw [dotQ_eq] at hs
    field_simp
    linarith
  refine ⟨(unit_iff _).mpr h1, ?_, fun eps he => ?_⟩
  · rw [hn]
    ext <;> simp [normalizeQ] <;> field_simp
  · rw [normalizedQ, h1]; simpa using he

/-- C87: multiplying a vector by a unit quaternion `q` is conjugation by `q`. -/
theorem C87_rotate (q : Quat ℝ) (hq : Unit q) (r : Fin 3 → ℝ) :
    pureH (rotateVector q r) = toH q * pureH r * star (toH q) := by
  rw [unit_iff] at hq
  rw [rotate_eq, rotM_eq_rotH q hq]
  ext <;> simp [rotH, dotProduct, Fin.sum_univ_three] <;> ring

/-- C87: rotating by a product is rotating by the right factor and then by the left one; the conjugate undoes the
rotation. -/
theorem C87_compose (p q : Quat ℝ) (hp : Unit p) (hq : Unit q) (r : Fin 3 → ℝ) :
    Unit (multiply p q) ∧ Unit (conjugate q) ∧
    rotateVector (multiply p q) r = rotateVector p (rotateVector q r) ∧
    rotateVector (conjugate q) (rotateVector q r) = r ∧ rotateVector q (rotateVector (conjugate q) r) = r ∧
    rotateVector identityQ r = r := by
  rw [unit_iff] at hp hq
  have hm := (Matrix.mem_specialOrthogonalGroup_iff.mp (rotM_mem q hq)).1
  have h1 := (Matrix.mem_orthogonalGroup_iff (Fin 3) ℝ).mp hm
  have h2 := (Matrix.mem_orthogonalGroup_iff' (Fin 3) ℝ).mp hm
  refine ⟨?_, ?_, ?_, ?_, ?_, ?_⟩
  · rw [unit_iff, dotQ_mul, hp, hq, mul_one]
  · rw [unit_iff]
    rw [dotQ_eq] at hq ⊢
    simpa [conjugate] using hq
  · rw [rotate_eq, rotate_eq, rotate_eq, rotM_mul _ _ hp hq, Matrix.mulVec_mulVec]
  · rw [rotate_eq, rotate_eq, rotM_conj, Matrix.mulVec_mulVec]
    rw [h2, Matrix.one_mulVec]
  · rw [rotate_eq, rotate_eq, rotM_conj, Matrix.mulVec_mulVec]
    rw [h1, Matrix.one_mulVec]
  · rw [rotate_eq]
    have : rotM (identityQ : Quat ℝ) = 1 := by
      funext i j
      fin_cases i <;> fin_cases j <;> simp [rotM, identityQ]
    rw [this, Matrix.one_mulVec]

/-- C87: the matrix of a unit quaternion is a proper rotation (so lengths, angles and orientation are kept), acts like
the quaternion, and is completed like the identity. -/
theorem C87_matrix {R C : ℕ} (hR : 3 ≤ R) (hC : 3 ≤ C) (q : Quat ℝ) :
    (Unit q → part33 hR hC (matrixFromQuaternion R C q) ∈ Matrix.specialOrthogonalGroup (Fin 3) ℝ) ∧
    (∀ r, (part33 hR hC (matrixFromQuaternion R C q)).mulVec r = rotateVector q r) := by
  have h : part33 hR hC (matrixFromQuaternion R C q) = rotM q := by
    funext i j
    simp only [part33, matrixFromQuaternion, ite_apply]
    split <;> fin_cases i <;> fin_cases j <;> simp [setAt, ofColumns3, rotM]
  rw [h]
  exact ⟨fun hq => rotM_mem q ((unit_iff q).mp hq), fun r => (rotate_eq q r).symm⟩

theorem C87_matrix_rest {R C : ℕ} (hs : (R = 3 ∧ C = 3) ∨ (R = 3 ∧ C = 4) ∨ (R = 4 ∧ C = 4)) (q : Quat ℝ)
    (i : Fin R) (j : Fin C) (h : ¬ (i.1 < 3 ∧ j.1 < 3)) :
    matrixFromQuaternion R C q i j = if i.1 = j.1 then 1 else 0 := by
  rcases hs with ⟨rfl, rfl⟩ | ⟨rfl, rfl⟩ | ⟨rfl, rfl⟩ <;>
    fin_cases i <;> fin_cases j <;> simp [matrixFromQuaternion, setAt, ofColumns3] at h ⊢

example : rotateVector (⟨0, ![0, 0, 1]⟩ : Quat ℚ) ![1, 2, 3] = ![-1, -2, 3] := by decide +kernel
example : Unit ⟨3 / 5, ![0, 4 / 5, 0]⟩ := by rw [unit_iff, dotQ_eq]; simp; norm_num

/-! ### C88: axis and angle -/

/-- C88: `from_axis_angle` of a unit axis gives the unit quaternion that turns vectors about the axis by the angle. -/
theorem C88_from_axis_angle (axis : Fin 3 → ℝ) (ha : ∑ i, axis i ^ 2 = 1) (angle : ℝ) (r : Fin 3 → ℝ) :
    Unit (fromAxisAngle ⟨axis, angle⟩) ∧ rotateVector (fromAxisAngle ⟨axis, angle⟩) r = rotateAbout axis angle r := by
  rw [Fin.sum_univ_three] at ha
  have ha' : axis 0 * axis 0 + axis 1 * axis 1 + axis 2 * axis 2 = 1 := by linarith
  exact ⟨(unit_iff _).mpr (dotQ_axis axis ha' angle), rotate_axis axis ha' angle r⟩

/-- C88: so does the matrix. -/
theorem C88_matrix {R C : ℕ} (hR : 3 ≤ R) (hC : 3 ≤ C) (axis : Fin 3 → ℝ) (ha : ∑ i, axis i ^ 2 = 1) (angle : ℝ)
    (r : Fin 3 → ℝ) :
    (part33 hR hC (matrixFromAxisAngle R C ⟨axis, angle⟩)).mulVec r = rotateAbout axis angle r := by
  rw [matrixFromAxisAngle, (C87_matrix hR hC _).2, (C88_from_axis_angle axis ha angle r).2]

/-- C88: `to_axis_angle` of a unit quaternion gives a unit axis and an angle that convert back to the quaternion; with
`shortest_path` the angle is between `0` and `π` and they convert back to the quaternion or its opposite, which is the
same rotation. -/
theorem C88_to_axis_angle (q : Quat ℝ) (hq : Unit q) :
    (∀ b, ∑ i, (toAxisAngle q b).axis i ^ 2 = 1) ∧
    (fromAxisAngle (toAxisAngle q false) = q ∧ 0 ≤ (toAxisAngle q false).angle ∧
      (toAxisAngle q false).angle ≤ 2 * Real.pi) ∧
    (toH (fromAxisAngle (toAxisAngle q true)) = (if q.s < 0 then -1 else 1 : ℝ) • toH q ∧
      0 ≤ (toAxisAngle q true).angle ∧ (toAxisAngle q true).angle ≤ Real.pi) := by
  have hn : (3 : ℕ) ≠ 1 := by decide
  rw [unit_iff, dotQ_eq] at hq
  have hlen : length q.v = Real.sqrt (q.v 0 * q.v 0 + q.v 1 * q.v 1 + q.v 2 * q.v 2) := by
    rw [Verif.Proofs.Vector.length_eq hn, lengthSquared, dot3]
  have hlen0 : 0 ≤ length q.v := by rw [hlen]; exact Real.sqrt_nonneg _
  have hlen2 : length q.v ^ 2 = q.v 0 * q.v 0 + q.v 1 * q.v 1 + q.v 2 * q.v 2 := by
    rw [hlen, Real.sq_sqrt]; nlinarith [mul_self_nonneg (q.v 0), mul_self_nonneg (q.v 1), mul_self_nonneg (q.v 2)]
  generalize hl : length q.v = l at *
  -- everything about one value of the correction
  have main : ∀ (b : Bool) (c : ℝ), c = (if b = true ∧ q.s < 0 then -1 else 1 : ℝ) → 
      (∑ i, (toAxisAngle q b).axis i ^ 2 = 1) ∧ (toH (fromAxisAngle (toAxisAngle q b)) = c • toH q) ∧
      (toAxisAngle q b).angle = 2 * atan2 l (q.s * c) := by
    intro b c hc
    have hcc : c * c = 1 := by rw [hc]; split <;> norm_num
    have hu : (q.s * c) * (q.s * c) + l * l = 1 := by
      calc _ = q.s * q.s * (c * c) + l ^ 2 := by ring
        _ = 1 := by rw [hcc, hlen2]; linarith
    obtain ⟨h1, h2⟩ := atan2_unit l (q.s * c) hu
    have hhalf : ∀ x : ℝ, 2 * x * (1 / 2) = x := fun x => by ring
    by_cases h0 : l = 0
    · have hv : q.v 0 = 0 ∧ q.v 1 = 0 ∧ q.v 2 = 0 := by
        rw [h0] at hlen2
        have a0 := mul_self_nonneg (q.v 0); have a1 := mul_self_nonneg (q.v 1); have a2 := mul_self_nonneg (q.v 2)
        refine ⟨?_, ?_, ?_⟩ <;> apply mul_self_eq_zero.mp <;> linarith
      have ht : toAxisAngle q b = ⟨![1, 0, 0], 2 * atan2 l (q.s * c)⟩ := by
        simp only [toAxisAngle, hl, ← hc]; rw [if_pos h0]
      rw [ht]
      refine ⟨by simp [Fin.sum_univ_three], ?_, rfl⟩
      simp only [fromAxisAngle, hhalf, h1, h2]
      ext <;> simp [hv.1, hv.2.1, hv.2.2, h0] <;> ring
    · have ht : toAxisAngle q b = ⟨![(q.v 0 * c) / l, (q.v 1 * c) / l, (q.v 2 * c) / l], 2 * atan2 l (q.s * c)⟩ := by
        simp only [toAxisAngle, hl, ← hc]; rw [if_neg h0]
      rw [ht]
      refine ⟨?_, ?_, rfl⟩
      · rw [Fin.sum_univ_three]
        simp
        field_simp
        calc _ = c * c * (q.v 0 * q.v 0 + q.v 1 * q.v 1 + q.v 2 * q.v 2) := by ring
          _ = l ^ 2 := by rw [hcc, hlen2, one_mul]
      · simp only [fromAxisAngle, hhalf, h1, h2]
        ext <;> simp <;> field_simp
  have ang0 : ∀ x : ℝ, 0 ≤ atan2 l x := fun x => Complex.arg_nonneg_iff.mpr hlen0
  refine ⟨fun b => (main b _ rfl).1, ⟨?_, ?_, ?_⟩, ?_, ?_, ?_⟩
  · have := (main false 1 (by simp)).2.1
    rw [one_smul] at this
    exact toH_inj this
  · rw [(main false 1 (by simp)).2.2]; have := ang0 (q.s * 1); linarith
  · rw [(main false 1 (by simp)).2.2]; have : atan2 l (q.s * 1) ≤ Real.pi := Complex.arg_le_pi _; linarith
  · rw [(main true _ rfl).2.1]; simp
  · rw [(main true _ rfl).2.2]; have := ang0 (q.s * (if true = true ∧ q.s < 0 then -1 else 1 : ℝ)); linarith
  · have hc : 0 ≤ q.s * (if true = true ∧ q.s < 0 then -1 else 1 : ℝ) := by
      simp only [true_and]
      split <;> linarith
    rw [(main true _ rfl).2.2]
    generalize q.s * (if true = true ∧ q.s < 0 then -1 else 1 : ℝ) = w at *
    have : |atan2 l w| ≤ Real.pi / 2 := by
      rw [atan2, Complex.abs_arg_le_pi_div_two_iff]; exact hc
    have := (abs_le.mp this).2
    linarith

example : ∑ i, (![0, 3 / 5, 4 / 5] : Fin 3 → ℝ) i ^ 2 = 1 := by simp [Fin.sum_univ_three]; norm_num
example : rotateAbout ![0, 0, 1] (Real.pi / 2) ![1, 0, 0] = ![0, 1, 0] := by
  funext i
  fin_cases i <;> simp [rotateAbout, crossProduct]

/-! ### C89: Euler angles

The documentation (`euler_angles.h` 62-88): yaw is applied first, about the up axis `(0, 1, 0)`, positive turning the
nose `(0, 0, -1)` to the right `(1, 0, 0)`; pitch second, about the *local* right axis; roll third, about the *local*
forward axis. -/

/-- Specification.  The documented meaning: turn about up, then about the right axis as it is after that, then about the
forward axis as it is after both. -/
noncomputable def documented (e : Euler) (r : Fin 3 → ℝ) : Fin 3 → ℝ :=
  let turn := rotateAbout ![0, 1, 0] (-e.yaw)
  let right := turn ![1, 0, 0]
  let pitch := rotateAbout right e.pitch
  let forward := pitch (turn ![0, 0, -1])
  rotateAbout forward e.roll (pitch (turn r))

/-- C89: what `from_euler` does: the three rotations in the documented order, about axes that stay fixed.  Missing: the
axes do not move along (`C89_local_axes_violated`). -/
theorem C89_from_euler_partial (e : Euler) (r : Fin 3 → ℝ) :
    Unit (fromEuler e) ∧
    rotateVector (fromEuler e) r =
      rotateAbout ![0, 0, -1] e.roll (rotateAbout ![1, 0, 0] e.pitch (rotateAbout ![0, 1, 0] (-e.yaw) r)) := by
  have hz := dotQ_axis ![0, 0, -1] (by simp) e.roll
  have hx := dotQ_axis ![1, 0, 0] (by simp) e.pitch
  have hy := dotQ_axis ![0, 1, 0] (by simp) (-e.yaw)
  refine ⟨(unit_iff _).mpr (fromEuler_unit e), ?_⟩
  rw [fromEuler_eq, rotate_eq, rotM_mul _ _ (by rw [dotQ_mul, hz, hx, mul_one]) hy, rotM_mul _ _ hz hx,
    ← Matrix.mulVec_mulVec, ← Matrix.mulVec_mulVec, ← rotate_eq, ← rotate_eq, ← rotate_eq,
    rotate_axis _ (by simp), rotate_axis _ (by simp), rotate_axis _ (by simp)]

theorem rotateAbout_zero (a r : Fin 3 → ℝ) : rotateAbout a 0 r = r := by
  simp [rotateAbout]

/-- C89: the documented meaning is right when at most one of the angles is not zero. -/
theorem C89_single_axis_partial (x : ℝ) (r : Fin 3 → ℝ) :
    rotateVector (fromEuler ⟨x, 0, 0⟩) r = documented ⟨x, 0, 0⟩ r ∧
    rotateVector (fromEuler ⟨0, x, 0⟩) r = documented ⟨0, x, 0⟩ r ∧
    rotateVector (fromEuler ⟨0, 0, x⟩) r = documented ⟨0, 0, x⟩ r := by
  refine ⟨?_, ?_, ?_⟩ <;> rw [(C89_from_euler_partial _ r).2] <;> simp [documented, rotateAbout_zero]

/-- C89: the signs are the documented ones: yaw turns the nose to the right, pitch raises it, roll lowers the right
wing. -/
theorem C89_signs (x : ℝ) :
    rotateVector (fromEuler ⟨x, 0, 0⟩) ![0, 0, -1] = ![Real.sin x, 0, -Real.cos x] ∧
    rotateVector (fromEuler ⟨0, x, 0⟩) ![0, 0, -1] = ![0, Real.sin x, -Real.cos x] ∧
    rotateVector (fromEuler ⟨0, 0, x⟩) ![1, 0, 0] = ![Real.cos x, -Real.sin x, 0] := by
  refine ⟨?_, ?_, ?_⟩ <;> rw [(C89_from_euler_partial _ _).2] <;> simp only [neg_zero, rotateAbout_zero] <;>
    funext i <;> fin_cases i <;> simp [rotateAbout, crossProduct]

/-- C89 is violated: pitch does not turn about the local right axis.  Turning right by 90° and then pulling the nose up
by 90° must make it point straight up; it points to the right. -/
theorem C89_local_axes_violated :
    documented ⟨Real.pi / 2, Real.pi / 2, 0⟩ ![0, 0, -1] = ![0, 1, 0] ∧
    rotateVector (fromEuler ⟨Real.pi / 2, Real.pi / 2, 0⟩) ![0, 0, -1] = ![1, 0, 0] := by
  constructor
  · simp only [documented, rotateAbout_zero]
    funext i
    fin_cases i <;> simp [rotateAbout, crossProduct, dotProduct, Fin.sum_univ_three]
  · rw [(C89_from_euler_partial _ _).2]
    funext i
    fin_cases i <;> simp [rotateAbout, crossProduct, dotProduct, Fin.sum_univ_three]

/-- C89: the matrix constructor does the same as the quaternion. -/
theorem C89_matrix {R C : ℕ} (hR : 3 ≤ R) (hC : 3 ≤ C) (e : Euler) (r : Fin 3 → ℝ) :
    (part33 hR hC (matrixFromEuler R C e)).mulVec r = rotateVector (fromEuler e) r :=
  (C87_matrix hR hC _).2 r

/-! ### C90: from quaternions back to Euler angles -/

theorem rot_entries (q : Quat ℝ) (hq : dotQ q q = 1) :
    rotM q 2 1 = 2 * eulerTest q ∧ rotM q 2 0 = 2 * (q.v 0 * q.v 2 - q.s * q.v 1) ∧
    rotM q 2 2 = q.s * q.s - q.v 0 * q.v 0 - q.v 1 * q.v 1 + q.v 2 * q.v 2 ∧
    rotM q 0 1 = 2 * (q.v 0 * q.v 1 - q.s * q.v 2) ∧
    rotM q 1 1 = q.s * q.s - q.v 0 * q.v 0 + q.v 1 * q.v 1 - q.v 2 * q.v 2 := by
  rw [rotM_eq_rotH q hq]
  refine ⟨?_, ?_, ?_, ?_, ?_⟩ <;> simp [rotH, eulerTest]
  ring

/-- C90: outside the band around the poles (`|sin pitch| ≤ 0.9999`) the angles `to_euler` extracts from a unit
quaternion give the same rotation back.  Missing: the band, where they do not (`C90_band_violated`); exactly at the poles
they do (`C90_poles`). -/
theorem C90_to_euler_partial (q : Quat ℝ) (hq : Unit q) (h : |eulerTest q| ≤ threshold) :
    SameRotation (fromEuler (toEuler q)) q ∧ |(toEuler q).pitch| ≤ Real.pi / 2 := by
  have hu := (unit_iff q).mp hq
  have hc : q.v 0 * q.v 0 + q.v 1 * q.v 1 + q.v 2 * q.v 2 + q.s * q.s = 1 := by rw [dotQ_eq] at hu; linarith
  obtain ⟨h1, h2⟩ := abs_le.mp h
  have he : toEuler q = ⟨-atan2 ((-2) * (q.v 0 * q.v 2 - q.s * q.v 1))
        (q.s * q.s - q.v 0 * q.v 0 - q.v 1 * q.v 1 + q.v 2 * q.v 2),
      Real.arcsin (2 * eulerTest q / 1),
      -atan2 ((-2) * (q.v 0 * q.v 1 - q.s * q.v 2)) (q.s * q.s - q.v 0 * q.v 0 + q.v 1 * q.v 1 - q.v 2 * q.v 2)⟩ := by
    simp only [toEuler, hc]
    rw [if_neg (by linarith), if_neg (by linarith)]
  constructor
  swap
  · rw [he]; exact abs_le.mpr ⟨Real.neg_pi_div_two_le_arcsin _, Real.arcsin_le_pi_div_two _⟩
  obtain ⟨m21, m20, m22, m01, m11⟩ := rot_entries q hu
  have hm := rotM_mem q hu
  obtain ⟨hr, hcol, -⟩ := so3_facts _ hm
  have hr2 := hr 2 2
  have hc1 := hcol 1 1
  simp only [if_true] at hr2 hc1
  obtain ⟨f20, f21, f22, f01, f11⟩ := fromEuler_rotM (toEuler q)
  have hthr : threshold = 49995 / 100000 := rfl
  have hsin : Real.sin (toEuler q).pitch = rotM q 2 1 := by
    rw [he, m21]; simp only [div_one]
    rw [Real.sin_arcsin] <;> linarith
  have hcos : Real.cos (toEuler q).pitch = Real.sqrt (1 - rotM q 2 1 ^ 2) := by
    rw [he, m21]; simp only [div_one]
    rw [Real.cos_arcsin]
  obtain ⟨y1, y2⟩ := atan2_spec (-rotM q 2 0) (rotM q 2 2)
  obtain ⟨r1, r2⟩ := atan2_spec (-rotM q 0 1) (rotM q 1 1)
  rw [show rotM q 2 2 * rotM q 2 2 + -rotM q 2 0 * -rotM q 2 0 = 1 - rotM q 2 1 ^ 2 by linarith] at y1 y2
  rw [show rotM q 1 1 * rotM q 1 1 + -rotM q 0 1 * -rotM q 0 1 = 1 - rotM q 2 1 ^ 2 by linarith] at r1 r2
  have hyaw : (toEuler q).yaw = -atan2 (-rotM q 2 0) (rotM q 2 2) := by
    rw [he, m20, m22]; congr 2; ring
  have hroll : (toEuler q).roll = -atan2 (-rotM q 0 1) (rotM q 1 1) := by
    rw [he, m01, m11]; congr 2; ring
  rw [hcos, hyaw, Real.sin_neg] at f20
  rw [hcos, hyaw, Real.cos_neg] at f22
  rw [hcos, hroll, Real.sin_neg] at f01
  rw [hcos, hroll, Real.cos_neg] at f11
  apply same_of_rotM _ _ ((unit_iff _).mpr (fromEuler_unit _)) hq
  apply so3_determined _ _ (rotM_mem _ (fromEuler_unit _)) hm
  · rw [f20]; linarith
  · rw [f21, hsin]
  · rw [f22]; linarith
  · rw [f01]; linarith
  · rw [f11]; linarith
  · have h20 : rotM (fromEuler (toEuler q)) 2 0 = rotM q 2 0 := by rw [f20]; linarith
    have h22 : rotM (fromEuler (toEuler q)) 2 2 = rotM q 2 2 := by rw [f22]; linarith
    rw [h20, h22]
    have : rotM q 2 1 ^ 2 < 1 := by
      rw [m21]
      have : (2 * eulerTest q) ^ 2 ≤ (2 * threshold) ^ 2 := by
        apply sq_le_sq'
        · linarith
        · linarith
      rw [hthr] at this
      norm_num at this
      linarith
    intro h0
    linarith

/-- What `to_euler` followed by `from_euler` gives near the poles. -/
theorem pole_value (q : Quat ℝ) (hq : Unit q) (h : threshold < |eulerTest q|) :
    fromEuler (toEuler q) =
      let k := Real.sqrt 2 / 2
      let c := Real.cos (atan2 (q.v 2) q.s)
      let s := Real.sin (atan2 (q.v 2) q.s)
      if 0 < eulerTest q then ⟨k * c, ![k * c, k * s, k * s]⟩ else ⟨k * c, ![-(k * c), -(k * s), k * s]⟩ := by
  have hu := (unit_iff q).mp hq
  have hc : q.v 0 * q.v 0 + q.v 1 * q.v 1 + q.v 2 * q.v 2 + q.s * q.s = 1 := by rw [dotQ_eq] at hu; linarith
  have hthr : threshold = 49995 / 100000 := rfl
  have hp : Real.pi / 2 * (1 / 2) = Real.pi / 4 := by ring
  have hp' : -(Real.pi / 2) * (1 / 2) = -(Real.pi / 4) := by ring
  by_cases h0 : 0 < eulerTest q
  · rw [abs_of_pos h0] at h
    have he : toEuler q = ⟨(-2) * atan2 (q.v 2) q.s, Real.pi / 2, 0⟩ := by
      simp only [toEuler, hc]; rw [if_pos (by linarith)]
    have ha : -(-2 * atan2 (q.v 2) q.s) * (1 / 2) = atan2 (q.v 2) q.s := by ring
    rw [if_pos h0, he]
    simp only [fromEuler, hp, ha, Real.cos_pi_div_four, Real.sin_pi_div_four]
    simp
  · rw [abs_of_nonpos (not_lt.mp h0)] at h
    have he : toEuler q = ⟨2 * atan2 (q.v 2) q.s, -(Real.pi / 2), 0⟩ := by
      simp only [toEuler, hc]; rw [if_neg (by linarith), if_pos (by linarith)]
    have ha : -(2 * atan2 (q.v 2) q.s) * (1 / 2) = -atan2 (q.v 2) q.s := by ring
    rw [if_neg h0, he]
    simp only [fromEuler, hp', ha, Real.cos_neg, Real.sin_neg, Real.cos_pi_div_four, Real.sin_pi_div_four]
    simp

/-- C90: exactly at the poles (pitch straight up or down) the rotation comes back too. -/
theorem C90_poles (q : Quat ℝ) (hq : Unit q) (h : |eulerTest q| = 1 / 2) : fromEuler (toEuler q) = q := by
  have hu := (unit_iff q).mp hq
  rw [dotQ_eq] at hu
  have hthr : threshold = 49995 / 100000 := rfl
  rw [pole_value q hq (by rw [h, hthr]; norm_num)]
  have h2 : Real.sqrt 2 * Real.sqrt 2 = 2 := Real.mul_self_sqrt (by norm_num)
  have h2p : 0 < Real.sqrt 2 := Real.sqrt_pos.mpr (by norm_num)
  obtain ⟨e1, e2⟩ := atan2_spec (q.v 2) q.s
  have key : q.s * q.s + q.v 2 * q.v 2 = 1 / 2 →
      Real.sqrt 2 / 2 * Real.cos (atan2 (q.v 2) q.s) = q.s ∧ Real.sqrt 2 / 2 * Real.sin (atan2 (q.v 2) q.s) = q.v 2 := by
    intro hk
    have hs : Real.sqrt (q.s * q.s + q.v 2 * q.v 2) = Real.sqrt 2 / 2 := by
      rw [hk, Real.sqrt_eq_iff_mul_self_eq (by norm_num) (by positivity)]
      linarith
    rw [hs] at e1 e2
    exact ⟨e1, e2⟩
  rcases abs_eq (by norm_num : (0 : ℝ) ≤ 1 / 2) |>.mp h with ht | ht
  · rw [if_pos (by rw [ht]; norm_num)]
    rw [eulerTest] at ht
    have hsum : (q.v 1 - q.v 2) * (q.v 1 - q.v 2) + (q.s - q.v 0) * (q.s - q.v 0) = 0 := by linarith
    have a1 := mul_self_nonneg (q.v 1 - q.v 2)
    have a2 := mul_self_nonneg (q.s - q.v 0)
    have b1 : q.v 1 = q.v 2 := by
      have := mul_self_eq_zero.mp (by linarith : (q.v 1 - q.v 2) * (q.v 1 - q.v 2) = 0); linarith
    have b2 : q.v 0 = q.s := by
      have := mul_self_eq_zero.mp (by linarith : (q.s - q.v 0) * (q.s - q.v 0) = 0); linarith
    obtain ⟨k1, k2⟩ := key (by rw [b1, b2] at ht; linarith)
    ext i
    · exact k1
    · fin_cases i <;> simp <;> linarith
  · rw [if_neg (by rw [ht]; norm_num)]
    rw [eulerTest] at ht
    have hsum : (q.v 1 + q.v 2) * (q.v 1 + q.v 2) + (q.s + q.v 0) * (q.s + q.v 0) = 0 := by linarith
    have a1 := mul_self_nonneg (q.v 1 + q.v 2)
    have a2 := mul_self_nonneg (q.s + q.v 0)
    have b1 : q.v 1 = -q.v 2 := by
      have := mul_self_eq_zero.mp (by linarith : (q.v 1 + q.v 2) * (q.v 1 + q.v 2) = 0); linarith
    have b2 : q.v 0 = -q.s := by
      have := mul_self_eq_zero.mp (by linarith : (q.s + q.v 0) * (q.s + q.v 0) = 0); linarith
    obtain ⟨k1, k2⟩ := key (by rw [b1, b2] at ht; linarith)
    ext i
    · exact k1
    · fin_cases i <;> simp <;> linarith

/-- C90 is violated in the band: within about 0.8° of a pole, but not at it, the rotation that comes back is another
one. -/
theorem C90_band_violated (q : Quat ℝ) (hq : Unit q) (h1 : threshold < |eulerTest q|) (h2 : |eulerTest q| ≠ 1 / 2) :
    ¬ SameRotation (fromEuler (toEuler q)) q := by
  intro hs
  have hu := (unit_iff q).mp hq
  have ht : eulerTest (fromEuler (toEuler q)) = eulerTest q := by
    rcases hs with hs | hs
    · rw [toH_inj hs]
    · have e0 : (fromEuler (toEuler q)).s = -q.s := congrArg (·.re) hs
      have e1 : (fromEuler (toEuler q)).v 0 = -q.v 0 := congrArg (·.imI) hs
      have e2 : (fromEuler (toEuler q)).v 1 = -q.v 1 := congrArg (·.imJ) hs
      have e3 : (fromEuler (toEuler q)).v 2 = -q.v 2 := congrArg (·.imK) hs
      rw [eulerTest, e0, e1, e2, e3, eulerTest]; ring
  have h22 : Real.sqrt 2 * Real.sqrt 2 = 2 := Real.mul_self_sqrt (by norm_num)
  have hsc := Real.sin_sq_add_cos_sq (atan2 (q.v 2) q.s)
  apply h2
  rw [← ht, pole_value q hq h1]
  generalize Real.sin (atan2 (q.v 2) q.s) = s at *
  generalize Real.cos (atan2 (q.v 2) q.s) = c at *
  simp only
  split
  · have : eulerTest ⟨Real.sqrt 2 / 2 * c, ![Real.sqrt 2 / 2 * c, Real.sqrt 2 / 2 * s, Real.sqrt 2 / 2 * s]⟩ = 1 / 2 := by
      simp [eulerTest]
      calc _ = (Real.sqrt 2 * Real.sqrt 2) / 4 * (s ^ 2 + c ^ 2) := by ring
        _ = 2⁻¹ := by rw [h22, hsc]; norm_num
    rw [this]; norm_num
  · have : eulerTest ⟨Real.sqrt 2 / 2 * c, ![-(Real.sqrt 2 / 2 * c), -(Real.sqrt 2 / 2 * s), Real.sqrt 2 / 2 * s]⟩
        = -(1 / 2) := by
      simp [eulerTest]
      calc _ = -((Real.sqrt 2 * Real.sqrt 2) / 4 * (s ^ 2 + c ^ 2)) := by ring
        _ = -2⁻¹ := by rw [h22, hsc]; norm_num
    rw [this]; norm_num

/-- C90: but it is close: the cosine of half the angle between the two rotations is at least `√0.9999` (so the angle is
at most 1.15°). -/
theorem C90_band_error (q : Quat ℝ) (hq : Unit q) (h : threshold < |eulerTest q|) :
    9999 / 10000 ≤ dotQ q (fromEuler (toEuler q)) ^ 2 := by
  have hthr : threshold = 49995 / 100000 := rfl
  rw [pole_value q hq h]
  obtain ⟨e1, e2⟩ := atan2_spec (q.v 2) q.s
  have hr : 0 ≤ Real.sqrt (q.s * q.s + q.v 2 * q.v 2) := Real.sqrt_nonneg _
  have hsc := Real.sin_sq_add_cos_sq (atan2 (q.v 2) q.s)
  have h22 : Real.sqrt 2 ^ 2 = 2 := Real.sq_sqrt (by norm_num)
  generalize Real.sqrt (q.s * q.s + q.v 2 * q.v 2) = l at *
  generalize Real.sin (atan2 (q.v 2) q.s) = s at *
  generalize Real.cos (atan2 (q.v 2) q.s) = c at *
  have amgm : ∀ w : ℝ, (l + w) ^ 2 ≥ 4 * (l * w) := fun w => by nlinarith [sq_nonneg (l - w)]
  simp only
  split
  · rename_i h0
    rw [abs_of_pos h0, hthr] at h
    have hw : l * (q.v 0 * c + q.v 1 * s) = eulerTest q := by rw [eulerTest, ← e1, ← e2]; ring
    have hd : dotQ q ⟨Real.sqrt 2 / 2 * c, ![Real.sqrt 2 / 2 * c, Real.sqrt 2 / 2 * s, Real.sqrt 2 / 2 * s]⟩
        = Real.sqrt 2 / 2 * (l + (q.v 0 * c + q.v 1 * s)) := by
      rw [dotQ_eq]
      simp
      rw [← e1, ← e2]
      linear_combination (Real.sqrt 2 / 2 * l) * hsc
    rw [hd, mul_pow, div_pow, h22]
    have := amgm (q.v 0 * c + q.v 1 * s)
    rw [hw] at this
    linarith
  · rename_i h0
    rw [abs_of_nonpos (not_lt.mp h0), hthr] at h
    have hw : l * (-(q.v 0 * c + q.v 1 * s)) = -eulerTest q := by rw [eulerTest, ← e1, ← e2]; ring
    have hd : dotQ q ⟨Real.sqrt 2 / 2 * c, ![-(Real.sqrt 2 / 2 * c), -(Real.sqrt 2 / 2 * s), Real.sqrt 2 / 2 * s]⟩
        = Real.sqrt 2 / 2 * (l + -(q.v 0 * c + q.v 1 * s)) := by
      rw [dotQ_eq]
      simp
      rw [← e1, ← e2]
      linear_combination (Real.sqrt 2 / 2 * l) * hsc
    rw [hd, mul_pow, div_pow, h22]
    have := amgm (-(q.v 0 * c + q.v 1 * s))
    rw [hw] at this
    linarith

/-- A unit quaternion in each region. -/
example : |eulerTest ⟨3 / 5, ![4 / 5, 0, 0]⟩| ≤ threshold := by simp [eulerTest, threshold]; norm_num
example : |eulerTest ⟨1 / 2, ![1 / 2, 1 / 2, 1 / 2]⟩| = 1 / 2 ∧ Unit ⟨1 / 2, ![1 / 2, 1 / 2, 1 / 2]⟩ := by
  rw [unit_iff, dotQ_eq]; simp [eulerTest]; norm_num
example : threshold < |eulerTest ⟨119 / 169, ![120 / 169, 0, 0]⟩| ∧
    |eulerTest ⟨119 / 169, ![120 / 169, 0, 0]⟩| ≠ 1 / 2 ∧ Unit ⟨119 / 169, ![120 / 169, 0, 0]⟩ := by
  rw [unit_iff, dotQ_eq]; simp [eulerTest, threshold, abs_of_pos]; norm_num

end Verif.Props.Quat
