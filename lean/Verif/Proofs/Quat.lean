import Mathlib.Analysis.Quaternion
import Mathlib.LinearAlgebra.UnitaryGroup
import Verif.Spec.Rotation
import Verif.Model.Quat
import Verif.Proofs.Transform

/-! Lemmas about quaternions. -/

namespace Verif.Model.Quat

open Verif.Model.Matrix Verif.Model.Vector Verif.Model.Transform Verif.Proofs.Transform

variable {K : Type*}

theorem dotQ_eq [CommRing K] (p q : Quat K) :
    dotQ p q = p.s * q.s + (p.v 0 * q.v 0 + p.v 1 * q.v 1 + p.v 2 * q.v 2) := by
  rw [dotQ, dot3]

/-- The rotation matrix of a quaternion, written out. -/
def rotM [CommRing K] (q : Quat K) : Matrix (Fin 3) (Fin 3) K :=
  !![1 - 2 * (q.v 1 * q.v 1 + q.v 2 * q.v 2), 2 * (q.v 0 * q.v 1 - q.s * q.v 2), 2 * (q.s * q.v 1 + q.v 0 * q.v 2);
     2 * (q.v 0 * q.v 1 + q.s * q.v 2), 1 - 2 * (q.v 0 * q.v 0 + q.v 2 * q.v 2), 2 * (q.v 1 * q.v 2 - q.s * q.v 0);
     2 * (q.v 0 * q.v 2 - q.s * q.v 1), 2 * (q.s * q.v 0 + q.v 1 * q.v 2), 1 - 2 * (q.v 0 * q.v 0 + q.v 1 * q.v 1)]

/-- Its homogeneous form. -/
def rotH [CommRing K] (q : Quat K) : Matrix (Fin 3) (Fin 3) K :=
  !![q.s * q.s + q.v 0 * q.v 0 - q.v 1 * q.v 1 - q.v 2 * q.v 2, 2 * (q.v 0 * q.v 1 - q.s * q.v 2), 2 * (q.s * q.v 1 + q.v 0 * q.v 2);
     2 * (q.v 0 * q.v 1 + q.s * q.v 2), q.s * q.s - q.v 0 * q.v 0 + q.v 1 * q.v 1 - q.v 2 * q.v 2, 2 * (q.v 1 * q.v 2 - q.s * q.v 0);
     2 * (q.v 0 * q.v 2 - q.s * q.v 1), 2 * (q.s * q.v 0 + q.v 1 * q.v 2), q.s * q.s - q.v 0 * q.v 0 - q.v 1 * q.v 1 + q.v 2 * q.v 2]

theorem rotM_eq_rotH [CommRing K] (q : Quat K) (h : dotQ q q = 1) : rotM q = rotH q := by
  rw [dotQ_eq] at h
  funext i j
  fin_cases i <;> fin_cases j <;> simp [rotM, rotH] <;> linear_combination -h

theorem rotate_eq [CommRing K] (q : Quat K) (r : Fin 3 → K) : rotateVector q r = (rotM q).mulVec r := by
  funext i
  fin_cases i <;> simp [rotateVector, rotM, cross, dotProduct, Fin.sum_univ_three] <;> ring

theorem rotH_mul [CommRing K] (p q : Quat K) : rotH (multiply p q) = rotH p * rotH q := by
  funext i j
  fin_cases i <;> fin_cases j <;>
    simp [rotH, multiply, dot3, cross, Matrix.mul_apply, Fin.sum_univ_three] <;> ring

theorem dotQ_mul [CommRing K] (p q : Quat K) : dotQ (multiply p q) (multiply p q) = dotQ p p * dotQ q q := by
  simp only [dotQ_eq, multiply, dot3, cross]; simp; ring

theorem rotM_mul [CommRing K] (p q : Quat K) (hp : dotQ p p = 1) (hq : dotQ q q = 1) :
    rotM (multiply p q) = rotM p * rotM q := by
  rw [rotM_eq_rotH _ hp, rotM_eq_rotH _ hq, rotM_eq_rotH _ (by rw [dotQ_mul, hp, hq, mul_one]), rotH_mul]

theorem rotM_conj [CommRing K] (q : Quat K) : rotM (conjugate q) = (rotM q).transpose := by
  funext i j
  fin_cases i <;> fin_cases j <;> simp [rotM, conjugate] <;> ring

theorem rotM_mem (q : Quat ℝ) (hq : dotQ q q = 1) : rotM q ∈ Matrix.specialOrthogonalGroup (Fin 3) ℝ := by
  rw [Matrix.mem_specialOrthogonalGroup_iff, Matrix.mem_orthogonalGroup_iff', rotM_eq_rotH q hq]
  rw [dotQ_eq] at hq
  constructor
  · have h2 : ∀ x : ℝ, x = (q.s * q.s + (q.v 0 * q.v 0 + q.v 1 * q.v 1 + q.v 2 * q.v 2)) ^ 2 → x = 1 := by
      intro x hx; rw [hx, hq, one_pow]
    funext i j
    fin_cases i <;> fin_cases j <;> simp [rotH, Matrix.mul_apply, Fin.sum_univ_three] <;>
      first | (apply h2; ring) | ring
  · have h3 : (1 : ℝ) = (q.s * q.s + (q.v 0 * q.v 0 + q.v 1 * q.v 1 + q.v 2 * q.v 2)) ^ 3 := by rw [hq, one_pow]
    rw [Matrix.det_fin_three, h3]; simp [rotH]; ring

/-- Two unit quaternions give the same matrix only if they are equal or opposite. -/
theorem rotM_inj (p q : Quat ℝ) (hp : dotQ p p = 1) (hq : dotQ q q = 1) (h : rotM p = rotM q) :
    p = q ∨ p = ⟨-q.s, fun i => -q.v i⟩ := by
  rw [dotQ_eq] at hp hq
  have e : ∀ i j, rotM p i j = rotM q i j := fun i j => by rw [h]
  have e00 := e 0 0; have e01 := e 0 1; have e02 := e 0 2
  have e10 := e 1 0; have e11 := e 1 1; have e12 := e 1 2
  have e20 := e 2 0; have e21 := e 2 1; have e22 := e 2 2
  simp [rotM] at e00 e01 e02 e10 e11 e12 e20 e21 e22
  obtain ⟨ps, pv⟩ := p
  obtain ⟨qs, qv⟩ := q
  simp only at *
  generalize hx : pv 0 = x at *
  generalize hy : pv 1 = y at *
  generalize hz : pv 2 = z at *
  generalize hx' : qv 0 = x' at *
  generalize hy' : qv 1 = y' at *
  generalize hz' : qv 2 = z' at *
  -- all products agree
  have ss : ps * ps = qs * qs := by linarith
  have xx : x * x = x' * x' := by linarith
  have yy : y * y = y' * y' := by linarith
  have zz : z * z = z' * z' := by linarith
  have xy : x * y = x' * y' := by linarith
  have xz : x * z = x' * z' := by linarith
  have yz : y * z = y' * z' := by linarith
  have sx : ps * x = qs * x' := by linarith
  have sy : ps * y = qs * y' := by linarith
  have sz : ps * z = qs * z' := by linarith
  have key : ∀ a b c d a' b' c' d' : ℝ, a ≠ 0 → a * a = a' * a' → a * b = a' * b' → a * c = a' * c' → a * d = a' * d' →
      (a = a' ∧ b = b' ∧ c = c' ∧ d = d') ∨ (a = -a' ∧ b = -b' ∧ c = -c' ∧ d = -d') := by
    intro a b c d a' b' c' d' ha h1 h2 h3 h4
    rcases mul_self_eq_mul_self_iff.mp h1 with h | h
    · left; subst h
      exact ⟨rfl, mul_left_cancel₀ ha h2, mul_left_cancel₀ ha h3, mul_left_cancel₀ ha h4⟩
    · right
      have h' : a' = -a := by linarith
      rw [h'] at h2 h3 h4
      exact ⟨h, mul_left_cancel₀ ha (by linarith), mul_left_cancel₀ ha (by linarith), mul_left_cancel₀ ha (by linarith)⟩
  have fin : (ps = qs ∧ x = x' ∧ y = y' ∧ z = z') ∨ (ps = -qs ∧ x = -x' ∧ y = -y' ∧ z = -z') := by
    by_cases h0 : ps = 0
    · by_cases h1 : x = 0
      · by_cases h2 : y = 0
        · have h3 : z ≠ 0 := by
            rintro rfl; rw [h0, h1, h2] at hp; norm_num at hp
          have := key z x y ps z' x' y' qs h3 zz (by linarith) (by linarith) (by linarith)
          tauto
        · have := key y x z ps y' x' z' qs h2 yy (by linarith) (by linarith) (by linarith)
          tauto
      · have := key x y z ps x' y' z' qs h1 xx (by linarith) (by linarith) (by linarith)
        tauto
    · have := key ps x y z qs x' y' z' h0 ss sx sy sz
      tauto
  rcases fin with ⟨h0, h1, h2, h3⟩ | ⟨h0, h1, h2, h3⟩
  · left
    ext i
    · exact h0
    · fin_cases i <;> simp <;> linarith
  · right
    ext i
    · exact h0
    · fin_cases i <;> simp <;> linarith

/-- The rotation matrix of a rotation about a unit axis, in terms of the full angle. -/
theorem rotate_axis (a : Fin 3 → ℝ) (ha : a 0 * a 0 + a 1 * a 1 + a 2 * a 2 = 1) (t : ℝ) (r : Fin 3 → ℝ) :
    rotateVector (fromAxisAngle ⟨a, t⟩) r = Verif.Spec.Rotation.rotateAbout a t r := by
  have hc : Real.cos t = Real.cos (t * (1 / 2)) ^ 2 - Real.sin (t * (1 / 2)) ^ 2 := by
    rw [← Real.cos_two_mul']; congr 1; ring
  have hs : Real.sin t = 2 * Real.sin (t * (1 / 2)) * Real.cos (t * (1 / 2)) := by
    rw [← Real.sin_two_mul]; congr 1; ring
  have h1 := Real.sin_sq_add_cos_sq (t * (1 / 2))
  rw [rotate_eq]
  simp only [fromAxisAngle, Verif.Spec.Rotation.rotateAbout, hc, hs]
  generalize Real.cos (t * (1 / 2)) = c at *
  generalize Real.sin (t * (1 / 2)) = s at *
  have hc2 : c ^ 2 = 1 - s ^ 2 := by linarith
  funext i
  fin_cases i <;>
    simp [rotM, dotProduct, Fin.sum_univ_three, crossProduct, Matrix.vecHead, Matrix.vecTail, hc2]
  · linear_combination (-2 * s ^ 2 * r 0) * ha
  · linear_combination (-2 * s ^ 2 * r 1) * ha
  · linear_combination (-2 * s ^ 2 * r 2) * ha

theorem dotQ_axis (a : Fin 3 → ℝ) (ha : a 0 * a 0 + a 1 * a 1 + a 2 * a 2 = 1) (t : ℝ) :
    dotQ (fromAxisAngle ⟨a, t⟩) (fromAxisAngle ⟨a, t⟩) = 1 := by
  rw [dotQ_eq]
  simp only [fromAxisAngle]
  have h1 := Real.sin_sq_add_cos_sq (t * (1 / 2))
  linear_combination h1 + Real.sin (t * (1 / 2)) ^ 2 * ha

/-! ### Angles -/

theorem atan2_spec (y x : ℝ) :
    Real.sqrt (x * x + y * y) * Real.cos (atan2 y x) = x ∧ Real.sqrt (x * x + y * y) * Real.sin (atan2 y x) = y := by
  have hn : ‖(⟨x, y⟩ : ℂ)‖ = Real.sqrt (x * x + y * y) := by
    rw [Complex.norm_def, Complex.normSq_mk]
  constructor
  · have := Complex.norm_mul_cos_arg (⟨x, y⟩ : ℂ)
    rwa [hn] at this
  · have := Complex.norm_mul_sin_arg (⟨x, y⟩ : ℂ)
    rwa [hn] at this

theorem atan2_unit (y x : ℝ) (h : x * x + y * y = 1) : Real.cos (atan2 y x) = x ∧ Real.sin (atan2 y x) = y := by
  have := atan2_spec y x
  rwa [h, Real.sqrt_one, one_mul, one_mul] at this

/-- `fromEuler` turns about the up axis, then about the right axis, then about the forward axis. -/
theorem fromEuler_eq (e : Euler) :
    fromEuler e = multiply (multiply (fromAxisAngle ⟨![0, 0, -1], e.roll⟩) (fromAxisAngle ⟨![1, 0, 0], e.pitch⟩))
      (fromAxisAngle ⟨![0, 1, 0], -e.yaw⟩) := by
  have h1 : ∀ x : ℝ, -x * (1 / 2) = -(x * (1 / 2)) := fun x => by ring
  ext i
  · simp [fromEuler, multiply, fromAxisAngle, dot3, cross, h1]; ring
  · fin_cases i <;> simp [fromEuler, multiply, fromAxisAngle, dot3, cross, h1] <;> ring

theorem fromEuler_unit (e : Euler) : dotQ (fromEuler e) (fromEuler e) = 1 := by
  rw [fromEuler_eq, dotQ_mul, dotQ_mul, dotQ_axis _ (by simp), dotQ_axis _ (by simp), dotQ_axis _ (by simp)]
  norm_num

/-- The matrix of `fromEuler`: third row and second column. -/
theorem fromEuler_rotM (e : Euler) :
    rotM (fromEuler e) 2 0 = Real.cos e.pitch * Real.sin e.yaw ∧
    rotM (fromEuler e) 2 1 = Real.sin e.pitch ∧
    rotM (fromEuler e) 2 2 = Real.cos e.pitch * Real.cos e.yaw ∧
    rotM (fromEuler e) 0 1 = Real.cos e.pitch * Real.sin e.roll ∧
    rotM (fromEuler e) 1 1 = Real.cos e.pitch * Real.cos e.roll := by
  have col : ∀ (q : Quat ℝ) (i j : Fin 3), rotM q i j = rotateVector q (Pi.single j 1) i := by
    intro q i j; rw [rotate_eq, Matrix.mulVec_single_one]; rfl
  have hz := dotQ_axis ![0, 0, -1] (by simp) e.roll
  have hx := dotQ_axis ![1, 0, 0] (by simp) e.pitch
  have hy := dotQ_axis ![0, 1, 0] (by simp) (-e.yaw)
  have comp : ∀ r, rotateVector (fromEuler e) r
      = Verif.Spec.Rotation.rotateAbout ![0, 0, -1] e.roll (Verif.Spec.Rotation.rotateAbout ![1, 0, 0] e.pitch
          (Verif.Spec.Rotation.rotateAbout ![0, 1, 0] (-e.yaw) r)) := by
    intro r
    rw [fromEuler_eq, rotate_eq, rotM_mul _ _ (by rw [dotQ_mul, hz, hx, mul_one]) hy, rotM_mul _ _ hz hx,
      ← Matrix.mulVec_mulVec, ← Matrix.mulVec_mulVec, ← rotate_eq, ← rotate_eq, ← rotate_eq,
      rotate_axis _ (by simp), rotate_axis _ (by simp), rotate_axis _ (by simp)]
  simp only [col, comp]
  simp [Verif.Spec.Rotation.rotateAbout, crossProduct, dotProduct, Fin.sum_univ_three, Matrix.vecHead, Matrix.vecTail,
    Pi.single_apply]
  ring_nf
  simp

/-- The equations of a rotation matrix: each row is the cross product of the other two, rows and columns are
orthonormal. -/
theorem so3_facts (a : Matrix (Fin 3) (Fin 3) ℝ) (ha : a ∈ Matrix.specialOrthogonalGroup (Fin 3) ℝ) :
    (∀ i j, a i 0 * a j 0 + a i 1 * a j 1 + a i 2 * a j 2 = if i = j then 1 else 0) ∧
    (∀ i j, a 0 i * a 0 j + a 1 i * a 1 j + a 2 i * a 2 j = if i = j then 1 else 0) ∧
    (a 0 0 = a 1 1 * a 2 2 - a 1 2 * a 2 1 ∧ a 0 1 = a 1 2 * a 2 0 - a 1 0 * a 2 2 ∧
     a 0 2 = a 1 0 * a 2 1 - a 1 1 * a 2 0 ∧ a 1 0 = a 2 1 * a 0 2 - a 2 2 * a 0 1 ∧
     a 1 1 = a 2 2 * a 0 0 - a 2 0 * a 0 2 ∧ a 1 2 = a 2 0 * a 0 1 - a 2 1 * a 0 0 ∧
     a 2 0 = a 0 1 * a 1 2 - a 0 2 * a 1 1 ∧ a 2 1 = a 0 2 * a 1 0 - a 0 0 * a 1 2 ∧
     a 2 2 = a 0 0 * a 1 1 - a 0 1 * a 1 0) := by
  rw [Matrix.mem_specialOrthogonalGroup_iff] at ha
  obtain ⟨ho, hd⟩ := ha
  have h1 := (Matrix.mem_orthogonalGroup_iff (Fin 3) ℝ).mp ho
  have h2 := (Matrix.mem_orthogonalGroup_iff' (Fin 3) ℝ).mp ho
  refine ⟨fun i j => ?_, fun i j => ?_, ?_⟩
  · have := congrFun (congrFun h1 i) j
    rw [Matrix.mul_apply, Fin.sum_univ_three, Matrix.one_apply] at this
    simpa using this
  · have := congrFun (congrFun h2 i) j
    rw [Matrix.mul_apply, Fin.sum_univ_three, Matrix.one_apply] at this
    simpa using this
  · have hadj : a.adjugate = a.transpose := by
      have h3 : a * a.adjugate = 1 := by rw [Matrix.mul_adjugate, hd, one_smul]
      calc a.adjugate = (a.transpose * a) * a.adjugate := by rw [h2, one_mul]
        _ = a.transpose := by rw [mul_assoc, h3, mul_one]
    have e : ∀ i j, a i j = a.adjugate j i := fun i j => by rw [hadj]; rfl
    rw [Matrix.adjugate_fin_three] at e
    have e00 := e 0 0; have e01 := e 0 1; have e02 := e 0 2
    have e10 := e 1 0; have e11 := e 1 1; have e12 := e 1 2
    have e20 := e 2 0; have e21 := e 2 1; have e22 := e 2 2
    simp at e00 e01 e02 e10 e11 e12 e20 e21 e22
    refine ⟨?_, ?_, ?_, ?_, ?_, ?_, ?_, ?_, ?_⟩ <;> linarith

/-- A rotation matrix is determined by its third row and second column unless the third row is the second axis. -/
theorem so3_determined (a b : Matrix (Fin 3) (Fin 3) ℝ) (ha : a ∈ Matrix.specialOrthogonalGroup (Fin 3) ℝ)
    (hb : b ∈ Matrix.specialOrthogonalGroup (Fin 3) ℝ) (h20 : a 2 0 = b 2 0) (h21 : a 2 1 = b 2 1)
    (h22 : a 2 2 = b 2 2) (h01 : a 0 1 = b 0 1) (h11 : a 1 1 = b 1 1) (hne : a 2 0 ^ 2 + a 2 2 ^ 2 ≠ 0) : a = b := by
  obtain ⟨ra, -, a00, a01, a02, a10, a11, a12, -, -, -⟩ := so3_facts a ha
  obtain ⟨rb, -, b00, b01, b02, b10, b11, b12, -, -, -⟩ := so3_facts b hb
  have r1 := ra 0 2; have r2 := rb 0 2; have r3 := ra 1 2; have r4 := rb 1 2
  simp only [show (0 : Fin 3) ≠ 2 by decide, show (1 : Fin 3) ≠ 2 by decide, if_false] at r1 r2 r3 r4
  rw [← h20, ← h21, ← h22, ← h01] at r2
  rw [← h20, ← h21, ← h22, ← h11] at r4
  rw [← h11, ← h20, ← h22] at b11
  rw [← h01, ← h20, ← h22] at b01
  have e00 : a 0 0 = b 0 0 := by
    have : (a 2 0 ^ 2 + a 2 2 ^ 2) * (a 0 0 - b 0 0) = 0 := by
      linear_combination a 2 0 * (r1 - r2) + a 2 2 * (b11 - a11)
    have := (mul_eq_zero.mp this).resolve_left hne
    linarith
  have e02 : a 0 2 = b 0 2 := by
    have : (a 2 0 ^ 2 + a 2 2 ^ 2) * (a 0 2 - b 0 2) = 0 := by
      linear_combination a 2 2 * (r1 - r2) - a 2 0 * (b11 - a11)
    have := (mul_eq_zero.mp this).resolve_left hne
    linarith
  have e10 : a 1 0 = b 1 0 := by
    have : (a 2 0 ^ 2 + a 2 2 ^ 2) * (a 1 0 - b 1 0) = 0 := by
      linear_combination a 2 0 * (r3 - r4) - a 2 2 * (b01 - a01)
    have := (mul_eq_zero.mp this).resolve_left hne
    linarith
  have e12 : a 1 2 = b 1 2 := by
    have : (a 2 0 ^ 2 + a 2 2 ^ 2) * (a 1 2 - b 1 2) = 0 := by
      linear_combination a 2 2 * (r3 - r4) + a 2 0 * (b01 - a01)
    have := (mul_eq_zero.mp this).resolve_left hne
    linarith
  funext i j
  fin_cases i <;> fin_cases j <;> assumption

/-- Four times the products of the components of the quaternion of a rotation matrix (`0` stands for the scalar). -/
def prod4 (a : Matrix (Fin 3) (Fin 3) ℝ) : Fin 4 → Fin 4 → ℝ :=
  ![![1 + a 0 0 + a 1 1 + a 2 2, a 2 1 - a 1 2, a 0 2 - a 2 0, a 1 0 - a 0 1],
    ![a 2 1 - a 1 2, 1 + a 0 0 - a 1 1 - a 2 2, a 0 1 + a 1 0, a 0 2 + a 2 0],
    ![a 0 2 - a 2 0, a 0 1 + a 1 0, 1 - a 0 0 + a 1 1 - a 2 2, a 2 1 + a 1 2],
    ![a 1 0 - a 0 1, a 0 2 + a 2 0, a 2 1 + a 1 2, 1 - a 0 0 - a 1 1 + a 2 2]]

theorem prod4_rank (a : Matrix (Fin 3) (Fin 3) ℝ) (ha : a ∈ Matrix.specialOrthogonalGroup (Fin 3) ℝ)
    (i j k : Fin 4) : prod4 a i i * prod4 a j k = prod4 a i j * prod4 a i k := by
  obtain ⟨r, c, a00, a01, a02, a10, a11, a12, a20, a21, a22⟩ := so3_facts a ha
  have r00 := r 0 0; have r11 := r 1 1; have r22 := r 2 2; have r01 := r 0 1; have r02 := r 0 2; have r12 := r 1 2
  have c00 := c 0 0; have c11 := c 1 1; have c22 := c 2 2; have c01 := c 0 1; have c02 := c 0 2; have c12 := c 1 2
  simp at r00 r11 r22 r01 r02 r12 c00 c11 c22 c01 c02 c12
  clear r c
  fin_cases i <;> fin_cases j <;> fin_cases k <;> simp [prod4] <;> linarith

end Verif.Model.Quat
