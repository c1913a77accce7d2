import Mathlib.Analysis.InnerProductSpace.PiL2
import Mathlib.LinearAlgebra.CrossProduct
import Mathlib.Tactic.Linarith
import Mathlib.Tactic.FinCases
import Verif.Model.Vector
import Verif.Proofs.Matrix

/-! Lemmas for `Verif/Props/Vector.lean`. -/

namespace Verif.Proofs.Vector

open Verif.Model.Vector Verif.Proofs.Matrix

variable {K : Type*}

theorem dot_eq [CommRing K] {n : ℕ} (v w : Fin n → K) : dot v w = ∑ i, v i * w i := by
  cases n with
  | zero => simp [dot]
  | succ n => exact dotLoop_eq v w

theorem lengthSquared_eq [CommRing K] {n : ℕ} (v : Fin n → K) : lengthSquared v = ∑ i, v i * v i := dot_eq v v

theorem smin_eq [LinearOrder K] (a b : K) : smin a b = Min.min a b := by
  unfold smin; split
  · rename_i h; rw [min_eq_left h.le]
  · rename_i h; rw [min_eq_right (not_lt.mp h)]

theorem smax_eq [LinearOrder K] (a b : K) : smax a b = Max.max a b := by
  unfold smax; split
  · rename_i h; rw [max_eq_right h.le]
  · rename_i h; rw [max_eq_left (not_lt.mp h)]

theorem sclamp_eq [LinearOrder K] {a lo hi : K} (h : lo ≤ hi) : sclamp a lo hi = Max.max lo (Min.min hi a) := by
  unfold sclamp; split
  · rename_i h'; rw [min_eq_right (h'.le.trans h), max_eq_left h'.le]
  · rename_i h'; push Not at h'
    split
    · rename_i h2; rw [min_eq_left h2.le, max_eq_right h]
    · rename_i h2; push Not at h2; rw [min_eq_right h2, max_eq_right h']

theorem lengthSquared_nonneg {n : ℕ} (v : Fin n → ℝ) : 0 ≤ lengthSquared v := by
  rw [lengthSquared_eq]; exact Finset.sum_nonneg fun i _ => mul_self_nonneg _

theorem lengthSquared_eq_zero {n : ℕ} (v : Fin n → ℝ) : lengthSquared v = 0 ↔ v = 0 := by
  rw [lengthSquared_eq, Finset.sum_eq_zero_iff_of_nonneg fun i _ => mul_self_nonneg _]
  constructor
  · intro h; funext i; exact mul_self_eq_zero.mp (h i (Finset.mem_univ i))
  · rintro rfl i _; simp

theorem length_eq {n : ℕ} (hn : n ≠ 1) (v : Fin n → ℝ) : length v = Real.sqrt (lengthSquared v) := by
  unfold length; split
  · exact absurd rfl hn
  · rfl

theorem normalize_eq {n : ℕ} (hn : n ≠ 1) (v : Fin n → ℝ) : normalizeV v = fun i => v i * (1 / length v) := by
  unfold normalizeV; split
  · exact absurd rfl hn
  · rfl

theorem normalizeOut_eq {n : ℕ} (hn : n ≠ 1) (v : Fin n → ℝ) : normalizeOut v = (normalizeV v, length v) := by
  rw [normalize_eq hn]
  unfold normalizeOut; split
  · exact absurd rfl hn
  · rfl

theorem sqrt_lengthSquared {n : ℕ} (v : Fin n → ℝ) :
    Real.sqrt (lengthSquared v) = ‖(WithLp.toLp 2 v : EuclideanSpace ℝ (Fin n))‖ := by
  rw [EuclideanSpace.norm_eq, lengthSquared_eq]
  congr 1
  exact Finset.sum_congr rfl fun i _ => by simp [← sq]

theorem distance_eq {n : ℕ} (p q : Fin n → ℝ) :
    distance p q = ‖(WithLp.toLp 2 q : EuclideanSpace ℝ (Fin n)) - WithLp.toLp 2 p‖ := by
  rw [distance, distanceSquared, sqrt_lengthSquared]; rfl

theorem cauchy {n : ℕ} (v w : Fin n → ℝ) :
    |dot v w| ≤ Real.sqrt (lengthSquared v) * Real.sqrt (lengthSquared w) := by
  rw [sqrt_lengthSquared, sqrt_lengthSquared]
  have h := abs_real_inner_le_norm (WithLp.toLp 2 v : EuclideanSpace ℝ (Fin n)) (WithLp.toLp 2 w)
  refine le_trans (le_of_eq ?_) h
  congr 1
  rw [dot_eq, PiLp.inner_apply]
  exact Finset.sum_congr rfl fun i _ => by simp [mul_comm]

theorem normalize_length {n : ℕ} (hn : n ≠ 1) (v : Fin n → ℝ) (hv : v ≠ 0) :
    lengthSquared (normalizeV v) = 1 := by
  have h0 : lengthSquared v ≠ 0 := fun h => hv ((lengthSquared_eq_zero v).mp h)
  have hp : 0 < lengthSquared v := lt_of_le_of_ne (lengthSquared_nonneg v) (Ne.symm h0)
  rw [normalize_eq hn, length_eq hn, lengthSquared_eq]
  have : ∀ i, v i * (1 / Real.sqrt (lengthSquared v)) * (v i * (1 / Real.sqrt (lengthSquared v)))
      = (v i * v i) * (1 / lengthSquared v) := by
    intro i
    have hs := Real.mul_self_sqrt hp.le
    rw [show v i * (1 / Real.sqrt (lengthSquared v)) * (v i * (1 / Real.sqrt (lengthSquared v)))
      = (v i * v i) * (1 / (Real.sqrt (lengthSquared v) * Real.sqrt (lengthSquared v))) by
        rw [one_div, one_div, mul_inv]; ring, hs]
  rw [Finset.sum_congr rfl fun i _ => this i, ← Finset.sum_mul, ← lengthSquared_eq, mul_one_div_cancel h0]

theorem cross_eq [CommRing K] (v w : Fin 3 → K) : cross v w = crossProduct v w := by
  rw [cross_apply]; rfl

end Verif.Proofs.Vector
