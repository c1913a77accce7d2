import Verif.Model.Shear
import Verif.Spec.Shear
import Verif.Proofs.Transform
import Verif.Proofs.Vector
import Mathlib.Algebra.BigOperators.Fin
import Mathlib.Tactic.FieldSimp
import Mathlib.Tactic.Linarith

/-! # Lemmas for C145 -/

namespace Verif.Proofs.Shear

open Verif.Model.Matrix Verif.Model.Vector Verif.Model.Transform Verif.Model.Shear Verif.Spec.Shear

theorem orthogonal_iff {n : ℕ} (h2 : n = 2 ∨ n = 3) (x y : Fin n → ℝ) : approxOrthogonal (Model.Shear.direction x) (Model.Shear.direction y) = true ↔ ¬Skew x y := by
  have hd : ∀ v w : Fin n → ℝ, dot v w = ∑ i, v i * w i := by
    intro v w
    exact Proofs.Vector.dot_eq v w
  have hl : ∀ v : Fin n → ℝ, length v = √(∑ i, v i ^ 2) := by
    intro v
    have : length v = √(lengthSquared v) := by rcases h2 with rfl | rfl <;> rfl
    rw [this, lengthSquared, hd]
    simp only [pow_two]
  have hn : ∀ v : Fin n → ℝ, normalizeV v = fun i => v i * (1 / length v) := by
    intro v
    rcases h2 with rfl | rfl <;> rfl
  unfold Skew Model.Shear.direction
  rw [← hl, ← hl]
  by_cases hx : length x = 0
  · simp [hx, approxOrthogonal]
  · by_cases hy : length y = 0
    · simp [hx, hy, approxOrthogonal]
    · have px : 0 < length x := lt_of_le_of_ne (by rw [hl]; exact Real.sqrt_nonneg _) (Ne.symm hx)
      have py : 0 < length y := lt_of_le_of_ne (by rw [hl]; exact Real.sqrt_nonneg _) (Ne.symm hy)
      simp only [hx, hy, if_false, approxOrthogonal, decide_eq_true_eq]
      rw [hd, hn, hn]
      have e : ∑ i, x i * (1 / length x) * (y i * (1 / length y)) = (∑ i, x i * y i) / (length x * length y) := by
        rw [Finset.sum_div]
        refine Finset.sum_congr rfl fun i _ => ?_
        field_simp
      rw [e, zero_sub, abs_neg, abs_div, abs_of_pos (mul_pos px py), div_lt_iff₀ (mul_pos px py)]
      constructor
      · intro h; linarith
      · intro h; push Not at h; linarith

theorem skew_symm {n : ℕ} {x y : Fin n → ℝ} (h : Skew x y) : Skew y x := by
  unfold Skew at *
  rw [mul_comm (√(∑ i, y i ^ 2))]
  simpa only [mul_comm] using h

end Verif.Proofs.Shear
