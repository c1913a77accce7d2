import Verif.Proofs.Angles
/-!
# C122 with rounding: how far off normalized angles are
-/
namespace Verif.Props.Angles
open Verif.Model.Scalar Verif.Spec.Float Verif.Proofs.Angles

/-- C122 with rounding, for 8 to 60 bits (24 for `float`, 53 for `double`): the result is the angle less a number of full turns, and in `[0, 2π]`, both up to ten units of round-off of the
angle and 29 more. The range of exponents is not bounded. -/
theorem C122_rounding_partial (fused : Bool) (p : ℕ) (h8 : 8 ≤ p) (h60 : p ≤ 60) (x : ℚ) :
    (∃ k : ℤ, |(normalizeAngle fused p x : ℝ) - (x - 2 * Real.pi * k)| ≤ (6 * |(x : ℝ)| + 29) / 2 ^ p) ∧
      -((10 * |(x : ℝ)| + 29) / 2 ^ p) ≤ normalizeAngle fused p x ∧ (normalizeAngle fused p x : ℝ) ≤ 2 * Real.pi + (10 * |(x : ℝ)| + 29) / 2 ^ p := by
  by_cases h : x < 0 ∨ x ≥ twoPi p
  · have e : normalizeAngle fused p x = wrap fused p x := by unfold normalizeAngle wrap; rw [if_pos h]
    rw [e]
    obtain ⟨k, h1, h2⟩ := wrap_near fused h8 h60 x
    exact ⟨⟨k, h1⟩, h2⟩
  · have e : normalizeAngle fused p x = x := by unfold normalizeAngle; rw [if_neg h]
    rw [e]
    push Not at h
    have x0 : (0 : ℝ) ≤ x := by exact_mod_cast h.1
    have x1 : (x : ℝ) < twoPi p := by exact_mod_cast h.2
    obtain ⟨a, b⟩ := pi_bounds
    have t := (abs_le.1 (twoPi_near h8 h60)).2
    have u0 : (0 : ℝ) < 1 / 2 ^ p := by positivity
    have f : (10 * |(x : ℝ)| + 29) / 2 ^ p = 1 / 2 ^ p * (10 * |(x : ℝ)| + 29) := by ring
    have s0 : 0 ≤ 1 / 2 ^ p * (10 * |(x : ℝ)|) := by positivity
    have s1 : (1 : ℝ) / 2 ^ p * (4 * Real.pi) ≤ 1 / 2 ^ p * 29 := mul_le_mul_of_nonneg_left (by linarith) u0.le
    refine ⟨⟨0, ?_⟩, ?_, ?_⟩
    · rw [Int.cast_zero, mul_zero, sub_zero, sub_self, abs_zero]; positivity
    · rw [f]; linarith
    · rw [f]; linarith

/-- C122 with rounding, for the signed version: the result is the angle less a number of full turns, and in `[-π, π]`, both up to twelve units of round-off of the angle and 90 more. -/
theorem C122_signed_rounding_partial (fused : Bool) (p : ℕ) (h8 : 8 ≤ p) (h60 : p ≤ 60) (x : ℚ) :
    (∃ k : ℤ, |(normalizeAngleSigned fused p x : ℝ) - (x - 2 * Real.pi * k)| ≤ (12 * |(x : ℝ)| + 90) / 2 ^ p) ∧
      -Real.pi - (12 * |(x : ℝ)| + 90) / 2 ^ p ≤ normalizeAngleSigned fused p x ∧ (normalizeAngleSigned fused p x : ℝ) ≤ Real.pi + (12 * |(x : ℝ)| + 90) / 2 ^ p := by
  obtain ⟨a, b⟩ := pi_bounds
  have near := pi_near h8 h60
  have hu1 := unit_le h8
  have f : (12 * |(x : ℝ)| + 90) / 2 ^ p = 1 / 2 ^ p * (12 * |(x : ℝ)| + 90) := by ring
  have X0 := abs_nonneg (x : ℝ)
  rw [f]
  by_cases h : x < -Model.Scalar.pi p ∨ x ≥ Model.Scalar.pi p
  · have e : normalizeAngleSigned fused p x = rnd p (wrap fused p (rnd p (x + Model.Scalar.pi p)) - Model.Scalar.pi p) := by
      unfold normalizeAngleSigned wrap; rw [if_pos h]
    rw [e]
    obtain ⟨k, h1, h2, h3⟩ := wrap_near fused h8 h60 (rnd p (x + Model.Scalar.pi p))
    obtain ⟨e1, he1, r1⟩ := rel p (x + Model.Scalar.pi p)
    obtain ⟨e2, he2, r2⟩ := rel p (wrap fused p (rnd p (x + Model.Scalar.pi p)) - Model.Scalar.pi p)
    generalize wrap fused p (rnd p (x + Model.Scalar.pi p)) = w at *
    generalize rnd p (w - Model.Scalar.pi p) = r at *
    generalize rnd p (x + Model.Scalar.pi p) = v at *
    generalize Model.Scalar.pi p = q at *
    push_cast at r1 r2
    rw [show (6 * |(v : ℝ)| + 29) / 2 ^ p = 1 / 2 ^ p * (6 * |(v : ℝ)| + 29) by ring] at h1
    rw [show (10 * |(v : ℝ)| + 29) / 2 ^ p = 1 / 2 ^ p * (10 * |(v : ℝ)| + 29) by ring] at h2 h3
    generalize hu : (1 : ℝ) / 2 ^ p = u at *
    have u0 : 0 < u := by rw [← hu]; positivity
    generalize hX : |(x : ℝ)| = X at *
    generalize (x : ℝ) = x' at *
    generalize (v : ℝ) = v' at *
    generalize (w : ℝ) = w' at *
    generalize (r : ℝ) = r' at *
    generalize (q : ℝ) = q' at *
    have uX : 0 ≤ u * X := by positivity
    have uX1 : u * X ≤ 1 / 256 * X := mul_le_mul_of_nonneg_right hu1 X0
    have uuX : u * (u * X) ≤ 1 / 256 * (u * X) := mul_le_mul_of_nonneg_right hu1 uX
    have uu : u * u ≤ 1 / 256 * u := mul_le_mul_of_nonneg_right hu1 u0.le
    have n1 : |q' - Real.pi| ≤ 7 * u := by
      have := mul_le_mul_of_nonneg_left (by linarith : 2 * Real.pi ≤ 7) u0.le
      linarith
    have nq := abs_le.1 n1
    have s1 : |x' + q'| ≤ X + 4 := by
      have := abs_add_le x' q'
      have : |q'| ≤ 4 := by rw [abs_le]; constructor <;> linarith
      linarith
    have m1 : |(x' + q') * e1| ≤ u * (X + 4) := by
      rw [abs_mul, mul_comm]
      exact mul_le_mul he1 s1 (abs_nonneg _) u0.le
    have mm := abs_le.1 m1
    have v1 : |v'| ≤ X + 4 + u * (X + 4) := by
      rw [r1, show (x' + q') * (1 + e1) = x' + q' + (x' + q') * e1 by ring]
      have := abs_add_le (x' + q') ((x' + q') * e1)
      linarith
    have uv : u * |v'| ≤ u * (X + 4 + u * (X + 4)) := mul_le_mul_of_nonneg_left v1 u0.le
    have c1 := abs_le.1 h1
    have s2 : |w' - q'| ≤ 5 + X / 16 := by
      have : u * |v'| ≤ 1 / 256 * |v'| := mul_le_mul_of_nonneg_right hu1 (abs_nonneg _)
      rw [abs_le]
      constructor <;> linarith
    have m2 : |(w' - q') * e2| ≤ u * (5 + X / 16) := by
      rw [abs_mul, mul_comm]
      exact mul_le_mul he2 s2 (abs_nonneg _) u0.le
    have mn := abs_le.1 m2
    have e1' : v' = x' + q' + (x' + q') * e1 := by rw [r1]; ring
    have e2' : r' = w' - q' + (w' - q') * e2 := by rw [r2]; ring
    refine ⟨⟨k, ?_⟩, ?_, ?_⟩
    · rw [abs_le]
      constructor <;> linarith
    · linarith
    · linarith
  · have e : normalizeAngleSigned fused p x = x := by unfold normalizeAngleSigned; rw [if_neg h]
    rw [e]
    push Not at h
    have x0 : -(Model.Scalar.pi p : ℝ) ≤ x := by exact_mod_cast h.1
    have x1 : (x : ℝ) < Model.Scalar.pi p := by exact_mod_cast h.2
    have t := (abs_le.1 near).2
    have u0 : (0 : ℝ) < 1 / 2 ^ p := by positivity
    have s0 : 0 ≤ 1 / 2 ^ p * (12 * |(x : ℝ)|) := by positivity
    have s1 : (1 : ℝ) / 2 ^ p * (2 * Real.pi) ≤ 1 / 2 ^ p * 90 := mul_le_mul_of_nonneg_left (by linarith) u0.le
    refine ⟨⟨0, ?_⟩, ?_, ?_⟩
    · rw [Int.cast_zero, mul_zero, sub_zero, sub_self, abs_zero]; positivity
    · linarith
    · linarith

/-- `float`: the normalized angle of 1000 is off by less than a thousandth. -/
example : ∃ k : ℤ, |(normalizeAngle false 24 1000 : ℝ) - (1000 - 2 * Real.pi * k)| ≤ 1 / 1000 := by
  obtain ⟨⟨k, h⟩, -⟩ := C122_rounding_partial false 24 (by norm_num) (by norm_num) 1000
  refine ⟨k, ?_⟩
  push_cast at h
  refine h.trans ?_
  norm_num [abs_of_pos]

end Verif.Props.Angles
