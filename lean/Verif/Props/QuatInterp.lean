import Verif.Props.Quat
import Verif.Props.Vector
import Mathlib.Analysis.SpecialFunctions.Trigonometric.Bounds
import Mathlib.Analysis.Real.Pi.Bounds

/-!
# C91-C93: quaternions from matrices and vectors, powers and interpolation
-/

namespace Verif.Props.QuatInterp

open Verif.Model.Matrix Verif.Model.Vector Verif.Model.Transform Verif.Model.Quat Verif.Spec.Rotation
open Verif.Proofs.Transform Verif.Props.Transform Verif.Props.Quat Verif.Proofs.Vector

/-! ### C91: quaternions of rotation matrices -/

/-- If the components of a quaternion have the right products, it is the quaternion of the matrix. -/
theorem of_products (a : Matrix (Fin 3) (Fin 3) ℝ) (q : Quat ℝ)
    (h : ∀ j k, 4 * (![q.s, q.v 0, q.v 1, q.v 2] j * ![q.s, q.v 0, q.v 1, q.v 2] k) = prod4 a j k) :
    dotQ q q = 1 ∧ rotM q = a := by
  have h00 := h 0 0; have h11 := h 1 1; have h22 := h 2 2; have h33 := h 3 3
  have h01 := h 0 1; have h02 := h 0 2; have h03 := h 0 3
  have h12 := h 1 2; have h13 := h 1 3; have h23 := h 2 3
  simp [prod4] at h00 h11 h22 h33 h01 h02 h03 h12 h13 h23
  constructor
  · rw [dotQ_eq]; linarith
  · funext i j
    fin_cases i <;> fin_cases j <;> simp [rotM] <;> linarith

/-- C91: the quaternion made from a rotation matrix (the upper-left part of a `3x3`, `3x4` or `4x4` matrix) is a unit
quaternion that rotates vectors like the matrix, whichever branch computes it. -/
theorem C91_from_matrix {R C : ℕ} (hR : 3 ≤ R) (hC : 3 ≤ C) (m : Mat ℝ R C)
    (hm : part33 hR hC m ∈ Matrix.specialOrthogonalGroup (Fin 3) ℝ) (r : Fin 3 → ℝ) :
    Unit (fromRotationMatrix hR hC m) ∧ rotateVector (fromRotationMatrix hR hC m) r = (part33 hR hC m).mulVec r := by
  suffices h : dotQ (fromRotationMatrix hR hC m) (fromRotationMatrix hR hC m) = 1 ∧
      rotM (fromRotationMatrix hR hC m) = part33 hR hC m by
    exact ⟨(unit_iff _).mpr h.1, by rw [rotate_eq, h.2]⟩
  set a := part33 hR hC m with ha
  have hg : ∀ i j, m (Fin.castLE hR i) (Fin.castLE hC j) = a i j := fun i j => rfl
  have rank := prod4_rank a hm
  -- one branch
  have branch : ∀ (i : Fin 4) (q : Quat ℝ), 0 < prod4 a i i →
      (∀ j, ![q.s, q.v 0, q.v 1, q.v 2] j = prod4 a i j * (1 / (2 * Real.sqrt (prod4 a i i)))) →
      dotQ q q = 1 ∧ rotM q = a := by
    intro i q hpos hq
    apply of_products
    intro j k
    rw [hq j, hq k]
    have hs : Real.sqrt (prod4 a i i) ^ 2 = prod4 a i i := Real.sq_sqrt hpos.le
    have hne : Real.sqrt (prod4 a i i) ≠ 0 := (Real.sqrt_pos.mpr hpos).ne'
    have := rank i j k
    generalize Real.sqrt (prod4 a i i) = l at *
    field_simp
    rw [hs]
    linear_combination -4 * this
  have quarter : ∀ x : ℝ, 0 < x → 1 / 4 * (2 * Real.sqrt x) = x * (1 / (2 * Real.sqrt x)) := by
    intro x hx
    have hs : Real.sqrt x ^ 2 = x := Real.sq_sqrt hx.le
    have hne : Real.sqrt x ≠ 0 := (Real.sqrt_pos.mpr hx).ne'
    generalize Real.sqrt x = l at *
    rw [← hs]
    field_simp
    norm_num
  obtain ⟨hr, -, -⟩ := so3_facts a hm
  have hdiag : a 0 0 ^ 2 ≤ 1 ∧ a 1 1 ^ 2 ≤ 1 ∧ a 2 2 ^ 2 ≤ 1 := by
    have r0 := hr 0 0; have r1 := hr 1 1; have r2 := hr 2 2
    simp only [if_true] at r0 r1 r2
    refine ⟨?_, ?_, ?_⟩
    · nlinarith [sq_nonneg (a 0 1), sq_nonneg (a 0 2)]
    · nlinarith [sq_nonneg (a 1 0), sq_nonneg (a 1 2)]
    · nlinarith [sq_nonneg (a 2 0), sq_nonneg (a 2 1)]
  simp only [fromRotationMatrix, hg]
  split
  · rename_i h0
    have hx : a 0 0 + a 1 1 + a 2 2 + 1 = prod4 a 0 0 := by simp [prod4]; ring
    have hp : 0 < prod4 a 0 0 := by rw [← hx]; linarith
    rw [hx]
    apply branch 0 _ hp
    intro j
    fin_cases j
    · exact quarter _ hp
    all_goals simp [prod4]
  · rename_i h0
    split
    · rename_i h1
      have hx : a 0 0 - a 1 1 - a 2 2 + 1 = prod4 a 1 1 := by simp [prod4]; ring
      have hp : 0 < prod4 a 1 1 := by rw [← hx]; nlinarith
      rw [hx]
      apply branch 1 _ hp
      intro j
      fin_cases j
      · simp [prod4]
      · exact quarter _ hp
      all_goals simp [prod4]
    · rename_i h1
      split
      · rename_i h2
        have hx : a 1 1 - a 0 0 - a 2 2 + 1 = prod4 a 2 2 := by simp [prod4]; ring
        have hp : 0 < prod4 a 2 2 := by rw [← hx]; nlinarith
        rw [hx]
        apply branch 2 _ hp
        intro j
        fin_cases j
        · simp [prod4]
        · simp [prod4]
        · exact quarter _ hp
        all_goals simp [prod4]
      · rename_i h2
        have hx : a 2 2 - a 0 0 - a 1 1 + 1 = prod4 a 3 3 := by simp [prod4]; ring
        have hp : 0 < prod4 a 3 3 := by
          rw [← hx]
          by_cases h3 : a 0 0 > a 1 1
          · have h4 : ¬ a 0 0 > a 2 2 := fun h => h1 ⟨h3, h⟩
            linarith
          · linarith
        rw [hx]
        apply branch 3 _ hp
        intro j
        fin_cases j
        · simp [prod4]
        · simp [prod4]
        · simp [prod4]
        · exact quarter _ hp

/-- C91: converting a unit quaternion to a matrix and back gives the same rotation. -/
theorem C91_round_trip {R C : ℕ} (hR : 3 ≤ R) (hC : 3 ≤ C) (q : Quat ℝ) (hq : Unit q) :
    SameRotation (fromRotationMatrix hR hC (matrixFromQuaternion R C q)) q := by
  obtain ⟨h1, h2⟩ := C87_matrix hR hC q
  have h3 := fun r => C91_from_matrix hR hC (matrixFromQuaternion R C q) (h1 hq) r
  apply same_of_rotM _ _ (h3 0).1 hq
  apply Matrix.mulVec_injective
  funext r
  rw [← rotate_eq, (h3 r).2, h2, rotate_eq]

/-! ### C92: the rotation between two vectors -/

/-- C92: for non-zero vectors of the same length, `from_rotation(a, b)` is a unit quaternion that takes `a` to `b`, unless
they are almost, but not exactly, opposite.  Missing: vectors of different lengths (`C92_lengths_violated`), and vectors
within the tolerance of being opposite, where the result takes `a` to `-a`. -/
theorem C92_from_rotation_partial (eps : ℝ) (he : 0 < eps) (a b : Fin 3 → ℝ) (ha : a ≠ 0)
    (hl : ∑ i, a i ^ 2 = ∑ i, b i ^ 2)
    (hb : b = -a ∨ eps ≤ |(∑ i, a i * b i) / (∑ i, a i ^ 2) + 1|) :
    Unit (fromRotation eps a b) ∧ rotateVector (fromRotation eps a b) a = b := by
  have hn : (3 : ℕ) ≠ 1 := by decide
  have hk : lengthSquared a = ∑ i, a i ^ 2 := by
    rw [lengthSquared, dot_eq]; exact Finset.sum_congr rfl fun i _ => by ring
  have hkp : 0 < lengthSquared a :=
    lt_of_le_of_ne (lengthSquared_nonneg a) (Ne.symm fun h => ha ((lengthSquared_eq_zero a).mp h))
  have hsq : Real.sqrt (lengthSquared a * lengthSquared a) = lengthSquared a := Real.sqrt_mul_self hkp.le
  have hdot : dot a b = ∑ i, a i * b i := dot_eq a b
  rw [Fin.sum_univ_three, Fin.sum_univ_three] at hl
  have hk3 : lengthSquared a = a 0 * a 0 + a 1 * a 1 + a 2 * a 2 := by rw [lengthSquared, dot3]
  simp only [fromRotation, hsq]
  split
  · rename_i hap
    have hopp : b = -a := by
      rcases hb with h | h
      · exact h
      · exfalso
        rw [← hk, ← hdot] at h
        have : |(-1) - dot a b / lengthSquared a| = |dot a b / lengthSquared a + 1| := by
          rw [← abs_neg]; congr 1; ring
        rw [this] at hap
        linarith
    -- half a turn about an orthogonal axis
    obtain ⟨ho, hperp⟩ := Verif.Props.Vector.C81_orthogonal a ha
    have hu := normalize_length hn (orthogonal a) ho
    have hperp' : dot a (normalizeV (orthogonal a)) = 0 := by
      rw [normalize_eq hn]
      rw [dot3] at hperp ⊢
      linear_combination (1 / length (orthogonal a)) * hperp
    generalize normalizeV (orthogonal a) = w at *
    rw [lengthSquared, dot3] at hu
    rw [dot3] at hperp'
    have hq : dotQ ⟨0, w⟩ ⟨0, w⟩ = 1 := by rw [dotQ_eq]; linarith
    refine ⟨(unit_iff _).mpr hq, ?_⟩
    rw [rotate_eq, hopp]
    funext i
    fin_cases i <;> simp [rotM, dotProduct, Fin.sum_univ_three]
    · linear_combination (2 * w 0) * hperp' - (2 * a 0) * hu
    · linear_combination (2 * w 1) * hperp' - (2 * a 1) * hu
    · linear_combination (2 * w 2) * hperp' - (2 * a 2) * hu
  · rename_i hap
    set k := lengthSquared a with hkdef
    have hc : dot a b = a 0 * b 0 + a 1 * b 1 + a 2 * b 2 := dot3 a b
    -- not opposite
    have hne : 0 < dot a b + k := by
      have h1 : 0 ≤ (a 0 + b 0) ^ 2 + (a 1 + b 1) ^ 2 + (a 2 + b 2) ^ 2 := by positivity
      have h2 : (a 0 + b 0) ^ 2 + (a 1 + b 1) ^ 2 + (a 2 + b 2) ^ 2 = 2 * (dot a b + k) := by
        rw [hc, hk3]; linarith
      rcases (lt_or_eq_of_le (by linarith : 0 ≤ dot a b + k)) with h | h
      · exact h
      · exfalso; apply hap
        have : dot a b = -k := by linarith
        rw [this, neg_div, div_self hkp.ne']; simpa using he
    have hq0 : dotQ ⟨dot a b + k, cross a b⟩ ⟨dot a b + k, cross a b⟩ = 2 * k * (dot a b + k) := by
      rw [dotQ_eq, hc, hk3]
      simp only [cross]
      simp
      linear_combination (-(a 0 * a 0 + a 1 * a 1 + a 2 * a 2)) * hl
    have hN : 0 < 2 * k * (dot a b + k) := by positivity
    have hs2 : Real.sqrt (2 * k * (dot a b + k)) ^ 2 = 2 * k * (dot a b + k) := Real.sq_sqrt hN.le
    have hsp : 0 < Real.sqrt (2 * k * (dot a b + k)) := Real.sqrt_pos.mpr hN
    have huq : Unit (normalizeQ ⟨dot a b + k, cross a b⟩) := by
      apply (C87_normalize _ _).1
      intro h
      have : dot a b + k = 0 := congrArg (·.re) h
      linarith
    refine ⟨huq, ?_⟩
    rw [rotate_eq, rotM_eq_rotH _ ((unit_iff _).mp huq)]
    have hb0 : ∀ i, 2 * k * (dot a b + k) * b i = (rotH (⟨dot a b + k, cross a b⟩ : Quat ℝ)).mulVec a i := by
      intro i
      rw [hc, hk3]
      fin_cases i <;> simp [rotH, cross, dotProduct, Fin.sum_univ_three]
      · linear_combination (-(a 0 * a 0 + a 1 * a 1 + a 2 * a 2) * a 0) * hl
      · linear_combination (-(a 0 * a 0 + a 1 * a 1 + a 2 * a 2) * a 1) * hl
      · linear_combination (-(a 0 * a 0 + a 1 * a 1 + a 2 * a 2) * a 2) * hl
    funext i
    have hh : ∀ i j, rotH (normalizeQ ⟨dot a b + k, cross a b⟩) i j
        = rotH (⟨dot a b + k, cross a b⟩ : Quat ℝ) i j * (1 / (2 * k * (dot a b + k))) := by
      intro i j
      rw [← hs2]
      simp only [normalizeQ, hq0]
      generalize Real.sqrt (2 * k * (dot a b + k)) = l at *
      fin_cases i <;> fin_cases j <;> simp [rotH] <;> field_simp
    have : (rotH (normalizeQ ⟨dot a b + k, cross a b⟩)).mulVec a i
        = (rotH (⟨dot a b + k, cross a b⟩ : Quat ℝ)).mulVec a i * (1 / (2 * k * (dot a b + k))) := by
      simp only [Matrix.mulVec, dotProduct, Fin.sum_univ_three, hh]; ring
    rw [this, ← hb0]
    field_simp

/-- What the general branch does for vectors of any lengths. -/
theorem rotH_between (a b : Fin 3 → ℝ) (i : Fin 3) :
    (rotH (⟨dot a b + lengthSquared a, cross a b⟩ : Quat ℝ)).mulVec a i
      = lengthSquared a * (lengthSquared a - lengthSquared b) * a i
        + 2 * (dot a b + lengthSquared a) * lengthSquared a * b i := by
  simp only [lengthSquared, dot3]
  fin_cases i <;> simp [rotH, cross, dotProduct, Fin.sum_univ_three] <;> ring

/-- C92 is violated whenever the lengths differ: unless the directions are parallel (or within the tolerance of being
opposite), the result does not rotate `a` onto the direction of `b`. -/
theorem C92_lengths_violated (eps : ℝ) (a b : Fin 3 → ℝ) (hp : cross a b ≠ 0) (hl : ∑ i, a i ^ 2 ≠ ∑ i, b i ^ 2)
    (hb : eps ≤ |(∑ i, a i * b i) / (∑ i, a i ^ 2) + 1|) (c : ℝ) :
    rotateVector (fromRotation eps a b) a ≠ c • b := by
  intro h
  have hk : ∀ a : Fin 3 → ℝ, lengthSquared a = ∑ i, a i ^ 2 := by
    intro a; rw [lengthSquared, dot_eq]; exact Finset.sum_congr rfl fun i _ => by ring
  rw [← hk, ← hk] at hl
  rw [← hk, ← dot_eq] at hb
  have ha : a ≠ 0 := by
    rintro rfl; apply hp; funext i; fin_cases i <;> simp [cross]
  have hkp : 0 < lengthSquared a :=
    lt_of_le_of_ne (lengthSquared_nonneg a) (Ne.symm fun h => ha ((lengthSquared_eq_zero a).mp h))
  have hsq : Real.sqrt (lengthSquared a * lengthSquared a) = lengthSquared a := Real.sqrt_mul_self hkp.le
  have hnb : ¬ |(-1) - dot a b / lengthSquared a| < eps := by
    have : |(-1) - dot a b / lengthSquared a| = |dot a b / lengthSquared a + 1| := by
      rw [← abs_neg]; congr 1; ring
    rw [this]; linarith
  simp only [fromRotation, hsq, if_neg hnb] at h
  set q : Quat ℝ := ⟨dot a b + lengthSquared a, cross a b⟩ with hq
  have hq0 : toH q ≠ 0 := by
    intro h0
    apply hp
    have e1 : cross a b 0 = 0 := congrArg (·.imI) h0
    have e2 : cross a b 1 = 0 := congrArg (·.imJ) h0
    have e3 : cross a b 2 = 0 := congrArg (·.imK) h0
    funext i; fin_cases i <;> assumption
  have hu := (C87_normalize q hq0).1
  have hN : 0 < dotQ q q := by
    have h1 : dotQ q q ≠ 0 := by
      intro h0
      have := (C87_algebra q q).2.2.2
      rw [h0] at this
      exact hq0 (inner_self_eq_zero.mp this.symm)
    have h2 : 0 ≤ dotQ q q := by
      rw [(C87_algebra q q).2.2.2, real_inner_self_eq_norm_sq]; positivity
    exact lt_of_le_of_ne h2 (Ne.symm h1)
  have hs2 : Real.sqrt (dotQ q q) ^ 2 = dotQ q q := Real.sq_sqrt hN.le
  have hsp : 0 < Real.sqrt (dotQ q q) := Real.sqrt_pos.mpr hN
  have hh : ∀ i j, rotH (normalizeQ q) i j = rotH q i j * (1 / dotQ q q) := by
    intro i j
    rw [← hs2]
    simp only [normalizeQ]
    generalize Real.sqrt (dotQ q q) = l at *
    fin_cases i <;> fin_cases j <;> simp [rotH] <;> field_simp
  rw [rotate_eq, rotM_eq_rotH _ ((unit_iff _).mp hu)] at h
  have hi : ∀ i, lengthSquared a * (lengthSquared a - lengthSquared b) * a i
      = (c * dotQ q q - 2 * (dot a b + lengthSquared a) * lengthSquared a) * b i := by
    intro i
    have h1 := congrFun h i
    have h2 : (rotH (normalizeQ q)).mulVec a i = (rotH q).mulVec a i * (1 / dotQ q q) := by
      simp only [Matrix.mulVec, dotProduct, Fin.sum_univ_three, hh]; ring
    rw [h2, hq, rotH_between, ← hq, Pi.smul_apply, smul_eq_mul] at h1
    field_simp at h1
    linear_combination h1
  have hne : lengthSquared a * (lengthSquared a - lengthSquared b) ≠ 0 :=
    mul_ne_zero hkp.ne' (sub_ne_zero.mpr hl)
  generalize c * dotQ q q - 2 * (dot a b + lengthSquared a) * lengthSquared a = d at hi
  generalize lengthSquared a * (lengthSquared a - lengthSquared b) = e at *
  apply hp
  have h0 := hi 0; have h1 := hi 1; have h2 := hi 2
  funext i
  fin_cases i <;> simp [cross] <;> apply mul_left_cancel₀ hne
  · linear_combination b 2 * h1 - b 1 * h2
  · linear_combination b 0 * h2 - b 2 * h0
  · linear_combination b 1 * h0 - b 0 * h1

/-- For instance turning `(1, 0, 0)` towards `(0, 2, 0)`. -/
example : cross ![1, 0, 0] ![0, 2, 0] ≠ (0 : Fin 3 → ℚ) := by decide +kernel
example (eps : ℝ) (h : eps ≤ 1) :
    eps ≤ |(∑ i, (![1, 0, 0] : Fin 3 → ℝ) i * (![0, 2, 0] : Fin 3 → ℝ) i) / (∑ i, (![1, 0, 0] : Fin 3 → ℝ) i ^ 2) + 1| := by
  simp [Fin.sum_univ_three]; exact h

/-! ### C93: multiples of rotations and interpolation -/

/-- C93: multiplying a unit quaternion by a scalar multiplies the angle of its shortest rotation. -/
theorem C93_scale (q : Quat ℝ) (hq : Unit q) (x : ℝ) :
    scale q x = fromAxisAngle ⟨(toAxisAngle q true).axis, x * (toAxisAngle q true).angle⟩ ∧ Unit (scale q x) := by
  have hn : (3 : ℕ) ≠ 1 := by decide
  have ha := (C88_to_axis_angle q hq).1 true
  have hl : length (toAxisAngle q true).axis = 1 := by
    rw [length_eq hn, lengthSquared, dot_eq]
    rw [show ∑ i, (toAxisAngle q true).axis i * (toAxisAngle q true).axis i = 1 by
      rw [← ha]; exact Finset.sum_congr rfl fun i _ => by ring]
    exact Real.sqrt_one
  have h1 : scale q x = fromAxisAngle ⟨(toAxisAngle q true).axis, x * (toAxisAngle q true).angle⟩ := by
    have h2 : normalizeV (toAxisAngle q true).axis = (toAxisAngle q true).axis := by
      rw [normalize_eq hn, hl]; simp
    have h3 : (toAxisAngle q true).angle * (x * (1 / 2)) = x * (toAxisAngle q true).angle * (1 / 2) := by ring
    simp only [scale, fromAxisAngle, h2, h3]
  exact ⟨h1, by rw [h1]; exact (C88_from_axis_angle _ ha _ 0).1⟩

/-- C93: so it behaves like a power: exponents add up, the zeroth is the identity and the first the same rotation. -/
theorem C93_power (q : Quat ℝ) (hq : Unit q) (x y : ℝ) :
    multiply (scale q x) (scale q y) = scale q (x + y) ∧ scale q 0 = identityQ ∧ SameRotation (scale q 1) q := by
  have ha := (C88_to_axis_angle q hq).1 true
  rw [Fin.sum_univ_three] at ha
  refine ⟨?_, ?_, ?_⟩
  · rw [(C93_scale q hq x).1, (C93_scale q hq y).1, (C93_scale q hq (x + y)).1]
    generalize (toAxisAngle q true).axis = w at *
    generalize (toAxisAngle q true).angle = t at *
    have hxy : (x + y) * t * (1 / 2) = x * t * (1 / 2) + y * t * (1 / 2) := by ring
    simp only [fromAxisAngle, hxy, Real.cos_add, Real.sin_add]
    ext i
    · simp only [multiply, dot3]
      linear_combination (-(Real.sin (x * t * (1 / 2)) * Real.sin (y * t * (1 / 2)))) * ha
    · fin_cases i <;> simp [multiply, cross] <;> ring
  · rw [(C93_scale q hq 0).1]
    ext i
    · simp [fromAxisAngle, identityQ]
    · fin_cases i <;> simp [fromAxisAngle, identityQ]
  · rw [(C93_scale q hq 1).1, one_mul]
    have h := (C88_to_axis_angle q hq).2.2.1
    have he : (⟨(toAxisAngle q true).axis, (toAxisAngle q true).angle⟩ : AxisAngle) = toAxisAngle q true := rfl
    rw [he, SameRotation, h]
    split
    · right; rw [neg_smul, one_smul]
    · left; rw [one_smul]

/-- The sign that makes the inner product non-negative. -/
noncomputable def side (a b : Quat ℝ) : ℝ := if dotQ a b < 0 then -1 else 1

theorem side_dot (a b : Quat ℝ) : (if dotQ a b < 0 then -dotQ a b else dotQ a b) = |dotQ a b| ∧
    side a b * dotQ a b = |dotQ a b| ∧ side a b * side a b = 1 := by
  rw [side]
  split
  · rename_i h; rw [abs_of_neg h]; norm_num
  · rename_i h; rw [abs_of_nonneg (not_lt.mp h)]; norm_num

theorem dotQ_comb (a b : Quat ℝ) (x y z w : ℝ) :
    dotQ (⟨a.s * x + b.s * y, fun i => a.v i * x + b.v i * y⟩ : Quat ℝ)
      ⟨a.s * z + b.s * w, fun i => a.v i * z + b.v i * w⟩
      = dotQ a a * x * z + dotQ a b * (x * w + y * z) + dotQ b b * y * w := by
  simp only [dotQ_eq]; ring

theorem dotQ_right (q a b : Quat ℝ) (x y : ℝ) :
    dotQ q ⟨a.s * x + b.s * y, fun i => a.v i * x + b.v i * y⟩ = dotQ q a * x + dotQ q b * y := by
  simp only [dotQ_eq]; ring

/-- C93: interpolating between two unit quaternions whose rotations differ by more than about 3.6° (inner product below
`0.9995`, up to sign) gives a unit quaternion at the fraction `alpha` of the way: its angle from the start is `alpha`
times the whole angle, its angle from the finish `1 - alpha` times; this holds for every `alpha`, also outside `[0, 1]`.
Missing: constant speed for closer rotations, which are interpolated linearly; `C93_slerp_close_speed` says how far that is
from constant speed. -/
theorem C93_slerp_partial (a b : Quat ℝ) (ha : Unit a) (hb : Unit b) (h : |dotQ a b| < 9995 / 10000) (alpha : ℝ) :
    Unit (slerp a b alpha) ∧
    dotQ a (slerp a b alpha) = Real.cos (alpha * Real.arccos |dotQ a b|) ∧
    side a b * dotQ b (slerp a b alpha) = Real.cos ((1 - alpha) * Real.arccos |dotQ a b|) := by
  obtain ⟨h1, h2, h3⟩ := side_dot a b
  rw [unit_iff] at ha hb
  set d := |dotQ a b| with hd
  have hd0 : 0 ≤ d := abs_nonneg _
  have hcos : Real.cos (Real.arccos d) = d := Real.cos_arccos (by linarith) (by linarith)
  have hsin : Real.sin (Real.arccos d) ^ 2 = 1 - d ^ 2 := by
    have := Real.sin_sq_add_cos_sq (Real.arccos d); rw [hcos] at this; linarith
  have hsp : 0 < Real.sin (Real.arccos d) := by
    rw [Real.sin_arccos]; apply Real.sqrt_pos.mpr; nlinarith
  have hS : slerp a b alpha =
      ⟨a.s * (Real.cos (Real.arccos d * alpha) - d * (Real.sin (Real.arccos d * alpha) / Real.sin (Real.arccos d)))
          + b.s * (Real.sin (Real.arccos d * alpha) / Real.sin (Real.arccos d) * side a b),
        fun i => a.v i * (Real.cos (Real.arccos d * alpha) - d * (Real.sin (Real.arccos d * alpha) / Real.sin (Real.arccos d)))
          + b.v i * (Real.sin (Real.arccos d * alpha) / Real.sin (Real.arccos d) * side a b)⟩ := by
    simp only [slerp, h1]
    rw [if_neg (by linarith)]
    ext i
    · simp only [side]; ring
    · simp only [side]; ring
  have ht : (1 - alpha) * Real.arccos d = Real.arccos d - Real.arccos d * alpha := by ring
  have ht' : alpha * Real.arccos d = Real.arccos d * alpha := by ring
  have hsc := Real.sin_sq_add_cos_sq (Real.arccos d * alpha)
  rw [hS, ht, ht', Real.cos_sub, hcos, unit_iff]
  generalize Real.cos (Real.arccos d * alpha) = c at *
  generalize Real.sin (Real.arccos d * alpha) = s at *
  generalize Real.sin (Real.arccos d) = s0 at *
  generalize side a b = e at *
  generalize hD : dotQ a b = D at *
  have hba : dotQ b a = D := by rw [← hD]; simp only [dotQ_eq]; ring
  obtain ⟨σ, hσ⟩ : ∃ σ, σ = s / s0 := ⟨_, rfl⟩
  have hσ' : σ * s0 = s := by rw [hσ]; field_simp
  rw [← hσ]
  refine ⟨?_, ?_, ?_⟩
  · rw [dotQ_comb, ha, hb, hD]
    linear_combination 2 * (c - d * σ) * σ * h2 + σ ^ 2 * h3 - σ ^ 2 * hsin + (σ * s0 + s) * hσ' + hsc
  · rw [dotQ_right, ha, hD]
    linear_combination σ * h2
  · rw [dotQ_right, hb, hba]
    linear_combination (c - d * σ) * h2 + σ * h3 - σ * hsin + s0 * hσ'

theorem normalizeQ_unit (q : Quat ℝ) (hq : dotQ q q = 1) : normalizeQ q = q := by
  ext <;> simp [normalizeQ, hq]

theorem unit_pm (q : Quat ℝ) (e : ℝ) (he : e * e = 1) (hq : dotQ q q = 1) :
    dotQ (⟨q.s * e, fun i => q.v i * e⟩ : Quat ℝ) ⟨q.s * e, fun i => q.v i * e⟩ = 1 := by
  rw [dotQ_eq] at hq ⊢
  linear_combination (e * e) * hq + he

/-- C93: at `0` interpolation gives the start, at `1` the finish (or its opposite, the same rotation). -/
theorem C93_slerp_ends (a b : Quat ℝ) (ha : Unit a) (hb : Unit b) :
    slerp a b 0 = a ∧ toH (slerp a b 1) = side a b • toH b := by
  obtain ⟨h1, h2, h3⟩ := side_dot a b
  rw [unit_iff] at ha hb
  have hside : side a b = if dotQ a b < 0 then -1 else 1 := rfl
  constructor
  · simp only [slerp, h1]
    split
    · rw [← hside]
      have : (⟨a.s * (1 - 0) + b.s * 0 * side a b, fun i => a.v i * (1 - 0) + b.v i * 0 * side a b⟩ : Quat ℝ) = a := by
        ext <;> simp
      rw [this, normalizeQ_unit a ha]
    · ext <;> simp
  · simp only [slerp, h1]
    split
    · rw [← hside]
      have : (⟨a.s * (1 - 1) + b.s * 1 * side a b, fun i => a.v i * (1 - 1) + b.v i * 1 * side a b⟩ : Quat ℝ)
          = ⟨b.s * side a b, fun i => b.v i * side a b⟩ := by
        ext <;> simp
      rw [this, normalizeQ_unit _ (unit_pm b _ h3 hb)]
      ext <;> simp <;> ring
    · rename_i h
      rw [← hside]
      have hd0 : 0 ≤ |dotQ a b| := abs_nonneg _
      have hcos : Real.cos (Real.arccos |dotQ a b|) = |dotQ a b| := Real.cos_arccos (by linarith) (by linarith)
      have hsp : Real.sin (Real.arccos |dotQ a b|) ≠ 0 := by
        rw [Real.sin_arccos]; apply ne_of_gt; apply Real.sqrt_pos.mpr; nlinarith
      rw [mul_one, div_self hsp, hcos]
      ext <;> simp <;> ring

/-- C93: for closer rotations and `alpha` in `[0, 1]` the result is a unit quaternion on the shorter arc between them. -/
theorem C93_slerp_close (a b : Quat ℝ) (ha : Unit a) (hb : Unit b) (h : 9995 / 10000 ≤ |dotQ a b|) (alpha : ℝ)
    (h0 : 0 ≤ alpha) (h1 : alpha ≤ 1) :
    Unit (slerp a b alpha) ∧
    ∃ c : ℝ, 0 < c ∧ toH (slerp a b alpha) = c • ((1 - alpha) • toH a + (alpha * side a b) • toH b) := by
  obtain ⟨e1, e2, e3⟩ := side_dot a b
  rw [unit_iff] at ha hb
  have hS : slerp a b alpha = normalizeQ ⟨a.s * (1 - alpha) + b.s * (alpha * side a b),
      fun i => a.v i * (1 - alpha) + b.v i * (alpha * side a b)⟩ := by
    simp only [slerp, e1]
    rw [if_pos h]
    congr 1
    ext
    · simp only [side]; ring
    · simp only [side]; ring
  have hN : 0 < dotQ (⟨a.s * (1 - alpha) + b.s * (alpha * side a b),
      fun i => a.v i * (1 - alpha) + b.v i * (alpha * side a b)⟩ : Quat ℝ)
      ⟨a.s * (1 - alpha) + b.s * (alpha * side a b), fun i => a.v i * (1 - alpha) + b.v i * (alpha * side a b)⟩ := by
    rw [dotQ_comb, ha, hb]
    have : 1 * (1 - alpha) * (1 - alpha) + dotQ a b * ((1 - alpha) * (alpha * side a b) + alpha * side a b * (1 - alpha))
        + 1 * (alpha * side a b) * (alpha * side a b)
        = (1 - alpha) ^ 2 + 2 * (alpha * (1 - alpha)) * |dotQ a b| + alpha ^ 2 := by
      linear_combination 2 * alpha * (1 - alpha) * e2 + alpha ^ 2 * e3
    rw [this]
    have hm : 0 ≤ alpha * (1 - alpha) := mul_nonneg h0 (by linarith)
    nlinarith [mul_nonneg hm (abs_nonneg (dotQ a b))]
  rw [hS]
  generalize hq : (⟨a.s * (1 - alpha) + b.s * (alpha * side a b),
      fun i => a.v i * (1 - alpha) + b.v i * (alpha * side a b)⟩ : Quat ℝ) = q at *
  have hq0 : toH q ≠ 0 := by
    intro h0
    have := (C87_algebra q q).2.2.2
    rw [h0, inner_zero_left] at this
    linarith
  refine ⟨(C87_normalize q hq0).1, 1 / Real.sqrt (dotQ q q), one_div_pos.mpr (Real.sqrt_pos.mpr hN), ?_⟩
  rw [normalizeQ]
  generalize 1 / Real.sqrt (dotQ q q) = l
  rw [← hq]
  ext <;> simp <;> ring

/-- The direction between two that are near, in equal parts of the chord, is nearly that of equal parts of the arc. -/
theorem chord_arc {d t N : ℝ} (hd : 9995 / 10000 ≤ d) (hd1 : d ≤ 1) (t0 : 0 ≤ t) (t1 : t ≤ 1) (N0 : 0 < N)
    (hN : N ^ 2 = (1 - t) ^ 2 + 2 * (t * (1 - t)) * d + t ^ 2) :
    |Real.arccos (((1 - t) + t * d) / N) - t * Real.arccos d| ≤ Real.arccos d ^ 3 / 14 ∧ Real.arccos d < 32 / 1000 := by
  have pi3 := Real.pi_gt_three
  have pi4 : Real.pi < 3.15 := Real.pi_lt_d2
  have hcos : Real.cos (Real.arccos d) = d := Real.cos_arccos (by linarith) hd1
  have hsin2 : Real.sin (Real.arccos d) ^ 2 = 1 - d ^ 2 := by
    have := Real.sin_sq_add_cos_sq (Real.arccos d); rw [hcos] at this; linarith
  have θ0 : 0 ≤ Real.arccos d := Real.arccos_nonneg d
  have θp : Real.arccos d ≤ Real.pi / 2 := Real.arccos_le_pi_div_two.2 (by linarith)
  set θ := Real.arccos d with hθ
  have hs0 : 0 ≤ Real.sin θ := Real.sin_nonneg_of_nonneg_of_le_pi θ0 (by linarith)
  have θ1 : θ < 32 / 1000 := by
    by_contra h
    have h1 : Real.sin (32 / 1000) ≤ Real.sin θ := Real.sin_le_sin_of_le_of_le_pi_div_two (by linarith) θp (not_lt.1 h)
    have h2 := Real.sin_gt_sub_cube (x := 32 / 1000) (by norm_num)
    have h3 : (0.0319 : ℝ) ≤ Real.sin θ := by norm_num at h2; linarith
    nlinarith
  refine ⟨?_, θ1⟩
  have m0 : 0 ≤ t * (1 - t) := mul_nonneg t0 (by linarith)
  have m4 : t * (1 - t) ≤ 1 / 4 := by nlinarith [sq_nonneg (t - 1 / 2)]
  have c0 : 0 ≤ (1 - t) + t * d := by nlinarith
  -- the sine of the angle of the chord
  have q : ((1 - t) + t * d) ^ 2 + (t * Real.sin θ) ^ 2 = N ^ 2 := by rw [hN, mul_pow, hsin2]; ring
  have cN : (((1 - t) + t * d) / N) ^ 2 + (t * Real.sin θ / N) ^ 2 = 1 := by
    rw [div_pow, div_pow, ← add_div, q, div_self (by positivity)]
  have c1 : ((1 - t) + t * d) / N ≤ 1 := by nlinarith [sq_nonneg (t * Real.sin θ / N), div_nonneg c0 N0.le]
  have ca : 0 ≤ ((1 - t) + t * d) / N := div_nonneg c0 N0.le
  set φ := Real.arccos (((1 - t) + t * d) / N) with hφ
  have cφ : Real.cos φ = ((1 - t) + t * d) / N := Real.cos_arccos (by linarith) c1
  have φ0 : 0 ≤ φ := Real.arccos_nonneg _
  have φp : φ ≤ Real.pi / 2 := Real.arccos_le_pi_div_two.2 ca
  have sφ : Real.sin φ = t * Real.sin θ / N := by
    have h1 : Real.sin φ ^ 2 = (t * Real.sin θ / N) ^ 2 := by
      have := Real.sin_sq_add_cos_sq φ; rw [cφ] at this; linarith
    exact (pow_left_inj₀ (Real.sin_nonneg_of_nonneg_of_le_pi φ0 (by linarith)) (div_nonneg (mul_nonneg t0 hs0) N0.le) (by norm_num)).1 h1
  have key : Real.sin (φ - t * θ) * N = t * Real.sin ((1 - t) * θ) - (1 - t) * Real.sin (t * θ) := by
    rw [Real.sin_sub, sφ, cφ, show (1 - t) * θ = θ - t * θ by ring, Real.sin_sub, hcos]
    field_simp
    ring
  have low : ∀ x : ℝ, 0 ≤ x → x - x ^ 3 / 6 ≤ Real.sin x := by
    intro x hx
    rcases hx.eq_or_lt with rfl | h
    · simp
    · exact (Real.sin_gt_sub_cube h).le
  have a0 : 0 ≤ t * θ := mul_nonneg t0 θ0
  have b0 : 0 ≤ (1 - t) * θ := mul_nonneg (by linarith) θ0
  have la := low _ a0
  have lb := low _ b0
  have ua := Real.sin_le a0
  have ub := Real.sin_le b0
  have θ3 : 0 ≤ θ ^ 3 := by positivity
  have up : Real.sin (φ - t * θ) * N ≤ θ ^ 3 / 24 := by
    rw [key]
    have h1 : t * Real.sin ((1 - t) * θ) ≤ t * ((1 - t) * θ) := mul_le_mul_of_nonneg_left ub t0
    have h2 : (1 - t) * (t * θ - (t * θ) ^ 3 / 6) ≤ (1 - t) * Real.sin (t * θ) := mul_le_mul_of_nonneg_left la (by linarith)
    have h3 : t * (1 - t) * t ^ 2 ≤ 1 / 4 * 1 := mul_le_mul m4 (pow_le_one₀ t0 t1) (by positivity) (by norm_num)
    have h4 := mul_le_mul_of_nonneg_right h3 θ3
    have e : t * ((1 - t) * θ) - (1 - t) * (t * θ - (t * θ) ^ 3 / 6) = t * (1 - t) * t ^ 2 * θ ^ 3 / 6 := by ring
    linarith
  have dn : -(θ ^ 3 / 24) ≤ Real.sin (φ - t * θ) * N := by
    rw [key]
    have h1 : t * ((1 - t) * θ - ((1 - t) * θ) ^ 3 / 6) ≤ t * Real.sin ((1 - t) * θ) := mul_le_mul_of_nonneg_left lb t0
    have h2 : (1 - t) * Real.sin (t * θ) ≤ (1 - t) * (t * θ) := mul_le_mul_of_nonneg_left ua (by linarith)
    have h3 : t * (1 - t) * (1 - t) ^ 2 ≤ 1 / 4 * 1 := mul_le_mul m4 (pow_le_one₀ (by linarith) (by linarith)) (by positivity) (by norm_num)
    have h4 := mul_le_mul_of_nonneg_right h3 θ3
    have e : (1 - t) * (t * θ) - t * ((1 - t) * θ - ((1 - t) * θ) ^ 3 / 6) = t * (1 - t) * (1 - t) ^ 2 * θ ^ 3 / 6 := by ring
    linarith
  have N99 : 99 / 100 ≤ N := by
    by_contra h
    have : N ^ 2 < (99 / 100) ^ 2 := pow_lt_pow_left₀ (not_le.1 h) N0.le (by norm_num)
    have : t * (1 - t) * (1 - d) ≤ 1 / 4 * (5 / 10000) := mul_le_mul m4 (by linarith) (by linarith) (by norm_num)
    have e : N ^ 2 = 1 - 2 * (t * (1 - t) * (1 - d)) := by rw [hN]; ring
    norm_num at *
    linarith
  -- from the sine to the angle
  have conv : ∀ x : ℝ, 0 ≤ x → x ≤ Real.pi / 2 → Real.sin x * N ≤ θ ^ 3 / 24 → x ≤ θ ^ 3 / 14 := by
    intro x x0 xp hx
    have h1 := Real.mul_le_sin x0 xp
    have h2 : 2 / Real.pi * x * (99 / 100) ≤ θ ^ 3 / 24 := (mul_le_mul h1 N99 (by norm_num) (Real.sin_nonneg_of_nonneg_of_le_pi x0 (by linarith))).trans hx
    have h3 : 2 / 3.15 ≤ 2 / Real.pi := div_le_div_of_nonneg_left (by norm_num) (by linarith) pi4.le
    have h4 : 2 / 3.15 * x * (99 / 100) ≤ 2 / Real.pi * x * (99 / 100) := by
      have := mul_le_mul_of_nonneg_right h3 x0
      linarith
    norm_num at h4
    linarith
  have tθ : t * θ ≤ Real.pi / 2 := (mul_le_of_le_one_left θ0 t1).trans θp
  rcases le_total 0 (φ - t * θ) with h | h
  · rw [abs_of_nonneg h]
    exact conv _ h (by linarith) up
  · rw [abs_of_nonpos h]
    refine conv _ (by linarith) (by linarith) ?_
    rw [Real.sin_neg]
    linarith

/-- C93: and the speed is nearly constant there: the angle from the start differs from the fraction `alpha` of the whole angle `θ`, which is less than 0.032 (half of the angle
of the rotations), by at most a fourteenth of the cube of `θ`. -/
theorem C93_slerp_close_speed (a b : Quat ℝ) (ha : Unit a) (hb : Unit b) (h : 9995 / 10000 ≤ |dotQ a b|) (alpha : ℝ)
    (h0 : 0 ≤ alpha) (h1 : alpha ≤ 1) :
    abs (Real.arccos (dotQ a (slerp a b alpha)) - alpha * Real.arccos |dotQ a b|) ≤ Real.arccos |dotQ a b| ^ 3 / 14 ∧ Real.arccos |dotQ a b| < 32 / 1000 := by
  obtain ⟨e1, e2, e3⟩ := side_dot a b
  rw [unit_iff] at ha hb
  have d1 : |dotQ a b| ≤ 1 := by
    have h1 := dotQ_comb a b 1 (-side a b) 1 (-side a b)
    have h2 : ∀ q : Quat ℝ, 0 ≤ dotQ q q := by
      intro q
      rw [dotQ_eq]
      nlinarith [sq_nonneg q.s, sq_nonneg (q.v 0), sq_nonneg (q.v 1), sq_nonneg (q.v 2)]
    have h2 := h2 (⟨a.s * 1 + b.s * -side a b, fun i => a.v i * 1 + b.v i * -side a b⟩ : Quat ℝ)
    rw [h1, ha, hb] at h2
    nlinarith
  have hS : slerp a b alpha = normalizeQ ⟨a.s * (1 - alpha) + b.s * (alpha * side a b),
      fun i => a.v i * (1 - alpha) + b.v i * (alpha * side a b)⟩ := by
    simp only [slerp, e1]
    rw [if_pos h]
    congr 1
    ext
    · simp only [side]; ring
    · simp only [side]; ring
  have hq : dotQ (⟨a.s * (1 - alpha) + b.s * (alpha * side a b), fun i => a.v i * (1 - alpha) + b.v i * (alpha * side a b)⟩ : Quat ℝ)
      ⟨a.s * (1 - alpha) + b.s * (alpha * side a b), fun i => a.v i * (1 - alpha) + b.v i * (alpha * side a b)⟩ =
      (1 - alpha) ^ 2 + 2 * (alpha * (1 - alpha)) * |dotQ a b| + alpha ^ 2 := by
    rw [dotQ_comb, ha, hb]
    linear_combination 2 * alpha * (1 - alpha) * e2 + alpha ^ 2 * e3
  have q0 : 0 < (1 - alpha) ^ 2 + 2 * (alpha * (1 - alpha)) * |dotQ a b| + alpha ^ 2 := by
    have hm : 0 ≤ alpha * (1 - alpha) := mul_nonneg h0 (by linarith)
    nlinarith [mul_nonneg hm (abs_nonneg (dotQ a b))]
  have hda : dotQ a (slerp a b alpha) = ((1 - alpha) + alpha * |dotQ a b|) / √((1 - alpha) ^ 2 + 2 * (alpha * (1 - alpha)) * |dotQ a b| + alpha ^ 2) := by
    rw [hS, normalizeQ, hq]
    have h3 : ∀ (q : Quat ℝ) (r : ℝ), dotQ a (⟨q.s * r, fun i => q.v i * r⟩ : Quat ℝ) = dotQ a q * r := by
      intro q r
      simp only [dotQ_eq]
      ring
    rw [h3, dotQ_right, ha, mul_one_div, ← e2]
    congr 1
    ring
  rw [hda]
  exact chord_arc h d1 h0 h1 (Real.sqrt_pos.2 q0) (Real.sq_sqrt q0.le)

/-- C93 is violated for close rotations: the speed of interpolation is not constant, at a quarter of the way the angle from the start is not a quarter of the whole angle. -/
theorem C93_slerp_speed_violated : ∃ a b : Quat ℝ, Unit a ∧ Unit b ∧ dotQ a (slerp a b (1 / 4)) ≠ Real.cos (1 / 4 * Real.arccos |dotQ a b|) := by
  have hd : dotQ (⟨1, ![0, 0, 0]⟩ : Quat ℝ) ⟨9999 / 10001, ![200 / 10001, 0, 0]⟩ = 9999 / 10001 := by
    rw [dotQ_eq]; norm_num [show ∀ a b c : ℝ, (![a, b, c] : Fin 3 → ℝ) 2 = c from fun _ _ _ => rfl]
  have ha : Unit (⟨1, ![0, 0, 0]⟩ : Quat ℝ) := by
    rw [unit_iff, dotQ_eq]; norm_num [show ∀ a b c : ℝ, (![a, b, c] : Fin 3 → ℝ) 2 = c from fun _ _ _ => rfl]
  have hb : Unit (⟨9999 / 10001, ![200 / 10001, 0, 0]⟩ : Quat ℝ) := by
    rw [unit_iff, dotQ_eq]; norm_num [show ∀ a b c : ℝ, (![a, b, c] : Fin 3 → ℝ) 2 = c from fun _ _ _ => rfl]
  refine ⟨_, _, ha, hb, fun h => ?_⟩
  obtain ⟨h1, c, -, h2⟩ := C93_slerp_close _ _ ha hb (by rw [hd]; norm_num) (1 / 4) (by norm_num) (by norm_num)
  have hs : side (⟨1, ![0, 0, 0]⟩ : Quat ℝ) ⟨9999 / 10001, ![200 / 10001, 0, 0]⟩ = 1 := by
    show (if dotQ _ _ < 0 then (-1 : ℝ) else 1) = 1
    rw [hd]; norm_num
  rw [hs] at h2
  rw [hd, abs_of_pos (by norm_num : (0 : ℝ) < 9999 / 10001)] at h
  generalize slerp (⟨1, ![0, 0, 0]⟩ : Quat ℝ) ⟨9999 / 10001, ![200 / 10001, 0, 0]⟩ (1 / 4) = r at *
  have k0 : r.s = c * ((1 - 1 / 4) * 1 + (1 / 4 * 1) * (9999 / 10001)) := congrArg QuaternionAlgebra.re h2
  have k1 : r.v 0 = c * ((1 - 1 / 4) * 0 + (1 / 4 * 1) * (200 / 10001)) := congrArg QuaternionAlgebra.imI h2
  have k2 : r.v 1 = c * ((1 - 1 / 4) * 0 + (1 / 4 * 1) * 0) := congrArg QuaternionAlgebra.imJ h2
  have k3 : r.v 2 = c * ((1 - 1 / 4) * 0 + (1 / 4 * 1) * 0) := congrArg QuaternionAlgebra.imK h2
  rw [unit_iff, dotQ_eq, k0, k1, k2, k3] at h1
  rw [dotQ_eq] at h
  simp [show ∀ a b c : ℝ, (![a, b, c] : Fin 3 → ℝ) 2 = c from fun _ _ _ => rfl] at h
  have hc : Real.cos (Real.arccos (9999 / 10001)) = 9999 / 10001 := Real.cos_arccos (by norm_num) (by norm_num)
  have e4 : Real.arccos (9999 / 10001) = 2 * (2 * (4⁻¹ * Real.arccos (9999 / 10001))) := by ring
  rw [e4, Real.cos_two_mul, Real.cos_two_mul, ← h, k0] at hc
  have e : c ^ 2 = 1 / ((40002 / 40004) ^ 2 + (200 / 40004) ^ 2) := by
    rw [eq_div_iff (by norm_num)]; rw [← h1]; ring
  have e' : 2 * (2 * (c ^ 2 * (40002 / 40004) ^ 2) - 1) ^ 2 - 1 = (9999 / 10001 : ℝ) := by
    rw [← hc]; ring
  rw [e] at e'
  norm_num at e'

/-- C93: interpolating backwards from the finish gives the same rotations. -/
theorem C93_slerp_reverse (a b : Quat ℝ) (ha : Unit a) (hb : Unit b) (alpha : ℝ) :
    toH (slerp b a (1 - alpha)) = side a b • toH (slerp a b alpha) := by
  obtain ⟨e1, e2, e3⟩ := side_dot a b
  rw [unit_iff] at ha hb
  have hba : dotQ b a = dotQ a b := by simp only [dotQ_eq]; ring
  have hside : side a b = if dotQ a b < 0 then -1 else 1 := rfl
  simp only [slerp, hba, e1]
  rw [← hside]
  split
  · have hn : dotQ (⟨b.s * (1 - (1 - alpha)) + a.s * (1 - alpha) * side a b,
        fun i => b.v i * (1 - (1 - alpha)) + a.v i * (1 - alpha) * side a b⟩ : Quat ℝ)
        ⟨b.s * (1 - (1 - alpha)) + a.s * (1 - alpha) * side a b,
        fun i => b.v i * (1 - (1 - alpha)) + a.v i * (1 - alpha) * side a b⟩
        = dotQ (⟨a.s * (1 - alpha) + b.s * alpha * side a b,
        fun i => a.v i * (1 - alpha) + b.v i * alpha * side a b⟩ : Quat ℝ)
        ⟨a.s * (1 - alpha) + b.s * alpha * side a b,
        fun i => a.v i * (1 - alpha) + b.v i * alpha * side a b⟩ := by
      rw [dotQ_eq] at ha hb
      simp only [dotQ_eq]
      linear_combination ((1 - alpha) ^ 2 * (side a b * side a b - 1)) * ha
        + (alpha ^ 2 * (1 - side a b * side a b)) * hb + ((1 - alpha) ^ 2 - alpha ^ 2) * e3
    simp only [normalizeQ, hn]
    generalize 1 / Real.sqrt _ = l
    ext <;> simp
    · linear_combination (-(b.s * alpha * l)) * e3
    · linear_combination (-(b.v 0 * alpha * l)) * e3
    · linear_combination (-(b.v 1 * alpha * l)) * e3
    · linear_combination (-(b.v 2 * alpha * l)) * e3
  · rename_i h
    have hd0 : 0 ≤ |dotQ a b| := abs_nonneg _
    have hcos : Real.cos (Real.arccos |dotQ a b|) = |dotQ a b| := Real.cos_arccos (by linarith) (by linarith)
    have hsp : Real.sin (Real.arccos |dotQ a b|) ≠ 0 := by
      rw [Real.sin_arccos]; apply ne_of_gt; apply Real.sqrt_pos.mpr; nlinarith
    have hsc := Real.sin_sq_add_cos_sq (Real.arccos |dotQ a b|)
    rw [show Real.arccos |dotQ a b| * (1 - alpha) = Real.arccos |dotQ a b| - Real.arccos |dotQ a b| * alpha by ring,
      Real.cos_sub, Real.sin_sub]
    rw [hcos] at hsc ⊢
    generalize Real.cos (Real.arccos |dotQ a b| * alpha) = c at *
    generalize Real.sin (Real.arccos |dotQ a b| * alpha) = s at *
    generalize Real.sin (Real.arccos |dotQ a b|) = s0 at *
    generalize |dotQ a b| = d at *
    -- the two weights are exchanged
    have w0 : d * c + s0 * s - d * ((s0 * c - d * s) / s0) = s / s0 := by
      field_simp; linear_combination s * hsc
    have w1 : (s0 * c - d * s) / s0 = c - d * (s / s0) := by field_simp
    rw [w0, w1]
    generalize s / s0 = σ
    ext <;> simp
    · linear_combination (-(b.s * σ)) * e3
    · linear_combination (-(b.v 0 * σ)) * e3
    · linear_combination (-(b.v 1 * σ)) * e3
    · linear_combination (-(b.v 2 * σ)) * e3

/-- Two unit quaternions a quarter turn apart. -/
example : Unit ⟨1, ![0, 0, 0]⟩ ∧ Unit ⟨0, ![0, 1, 0]⟩ ∧
    |dotQ (⟨1, ![0, 0, 0]⟩ : Quat ℝ) ⟨0, ![0, 1, 0]⟩| < 9995 / 10000 := by
  refine ⟨?_, ?_, ?_⟩
  · rw [unit_iff, dotQ_eq]; simp
  · rw [unit_iff, dotQ_eq]; simp
  · rw [dotQ_eq]; simp

/-- Two that are close. -/
example : Unit ⟨1, ![0, 0, 0]⟩ ∧ Unit ⟨9999 / 10001, ![200 / 10001, 0, 0]⟩ ∧
    9995 / 10000 ≤ |dotQ (⟨1, ![0, 0, 0]⟩ : Quat ℝ) ⟨9999 / 10001, ![200 / 10001, 0, 0]⟩| := by
  refine ⟨?_, ?_, ?_⟩
  · rw [unit_iff, dotQ_eq]; simp
  · rw [unit_iff, dotQ_eq]; simp; norm_num
  · rw [dotQ_eq]; simp; norm_num [abs_of_pos]

end Verif.Props.QuatInterp
