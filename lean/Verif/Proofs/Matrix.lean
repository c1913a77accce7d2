import Mathlib.LinearAlgebra.Matrix.Determinant.Basic
import Mathlib.Tactic.FieldSimp
import Mathlib.Tactic.Ring
import Mathlib.Tactic.FinCases
import Verif.Model.Matrix

/-! Lemmas for `Verif/Props/Matrix.lean`. -/

namespace Verif.Proofs.Matrix

open Verif.Model.Matrix

variable {K : Type*}

section ring
variable [CommRing K]

theorem foldl_add {n : ℕ} (h : Fin n → K) (a : K) (l : List (Fin n)) :
    l.foldl (fun val i => val + h i) a = a + (l.map h).sum := by
  induction l generalizing a with
  | nil => simp
  | cons x xs ih => simp [ih, add_assoc]

theorem dotLoop_eq {n : ℕ} (f g : Fin (n + 1) → K) : dotLoop f g = ∑ i, f i * g i := by
  rw [dotLoop, foldl_add (fun i => f (Fin.succ i) * g (Fin.succ i)), Fin.sum_univ_succ,
    ← List.ofFn_eq_map, List.sum_ofFn]

theorem mul_eq {R N C : ℕ} (l : Mat K R N) (r : Mat K N C) :
    mul l r = (Matrix.of l * Matrix.of r : Matrix (Fin R) (Fin C) K) := by
  funext i j
  rw [Matrix.mul_apply]
  unfold mul
  split
  · fin_cases i <;> fin_cases j <;> simp [ofCols, Fin.sum_univ_succ]
  · fin_cases i <;> fin_cases j <;> simp [ofCols, Fin.sum_univ_succ] <;> ring
  · fin_cases i <;> fin_cases j <;> simp [ofCols, Fin.sum_univ_succ] <;> ring
  · rw [mulLoop, dotLoop_eq]; rfl
  · simp

theorem mulVec_eq {R C : ℕ} (l : Mat K R C) (v : Fin C → K) :
    mulVec l v = Matrix.mulVec (Matrix.of l) v := by
  funext i
  simp only [Matrix.mulVec, dotProduct]
  unfold mulVec
  split
  · fin_cases i <;> simp [Fin.sum_univ_succ]
  · fin_cases i <;> simp [Fin.sum_univ_succ] <;> ring
  · fin_cases i <;> simp [Fin.sum_univ_succ] <;> ring
  · exact dotLoop_eq _ _
  · simp

theorem vecMul_eq {R C : ℕ} (v : Fin R → K) (m : Mat K R C) :
    vecMul v m = Matrix.vecMul v (Matrix.of m) := by
  funext i
  simp only [Matrix.vecMul, dotProduct]
  unfold vecMul
  split
  · fin_cases i <;> simp [Fin.sum_univ_succ]
  · fin_cases i <;> simp [Fin.sum_univ_succ] <;> ring
  · fin_cases i <;> simp [Fin.sum_univ_succ] <;> ring
  · exact dotLoop_eq _ _
  · simp

omit [CommRing K] in
theorem transpose_eq {R C : ℕ} (m : Mat K R C) : transpose m = fun i j => m j i := by
  funext i j
  unfold transpose
  split
  · fin_cases i <;> fin_cases j <;> simp [ofCols]
  · fin_cases i <;> fin_cases j <;> simp [ofCols]
  · fin_cases i <;> fin_cases j <;> simp [ofCols]
  · rfl

theorem identity_eq (R C : ℕ) : (identity R C : Mat K R C) = fun i j => if i.1 = j.1 then 1 else 0 := by
  funext i j
  have hi := i.2
  have hj := j.2
  unfold identity
  by_cases h : i.1 = j.1
  · rw [if_pos h, if_pos h]
    split_ifs <;> first | rfl | omega
  · rw [if_neg h, if_neg h]

theorem det1 (m : Mat K 1 1) : m 0 0 = Matrix.det (Matrix.of m) := by
  simp

theorem det2 (m : Mat K 2 2) : rawDet2 0 1 0 1 m = Matrix.det (Matrix.of m) := by
  rw [Matrix.det_fin_two]; rfl

theorem det3 (m : Mat K 3 3) : rawDet3 0 1 2 0 1 2 m = Matrix.det (Matrix.of m) := by
  rw [Matrix.det_fin_three]
  simp only [rawDet3, rawDet2, Matrix.of_apply]
  ring

theorem det4 (m : Mat K 4 4) : rawDet4 0 1 2 3 0 1 2 3 m = Matrix.det (Matrix.of m) := by
  rw [Matrix.det_succ_row_zero]
  simp only [Matrix.det_fin_three, Fin.sum_univ_four, Matrix.submatrix_apply, Matrix.of_apply,
    rawDet4, rawDet3, rawDet2]
  simp [Fin.succAbove, Fin.lt_def]
  ring

end ring

section field
variable [Field K]

theorem invert1_mul (m : Mat K 1 1) (h : Matrix.det (Matrix.of m) ≠ 0) :
    Matrix.of (invert1 m) * Matrix.of m = 1 := by
  rw [← det1] at h
  ext i j
  fin_cases i; fin_cases j
  simp [invert1, ofCols, Matrix.mul_apply, h]

theorem invert2_mul (m : Mat K 2 2) (h : Matrix.det (Matrix.of m) ≠ 0) :
    Matrix.of (invert2 m) * Matrix.of m = 1 := by
  rw [← det2] at h
  ext i j
  have e : rawDet2 0 1 0 1 m = m 0 0 * m 1 1 - m 0 1 * m 1 0 := rfl
  fin_cases i <;> fin_cases j <;>
    simp [invert2, ofCols, Matrix.mul_apply, Fin.sum_univ_succ] <;> field_simp <;> rw [e] <;> ring

theorem invert3_mul (m : Mat K 3 3) (h : Matrix.det (Matrix.of m) ≠ 0) :
    Matrix.of (invert3 m) * Matrix.of m = 1 := by
  rw [← det3] at h
  ext i j
  have e : rawDet3 0 1 2 0 1 2 m = m 0 0 * (m 1 1 * m 2 2 - m 1 2 * m 2 1)
      - m 0 1 * (m 1 0 * m 2 2 - m 1 2 * m 2 0) + m 0 2 * (m 1 0 * m 2 1 - m 1 1 * m 2 0) := rfl
  fin_cases i <;> fin_cases j <;>
    simp [invert3, ofCols, Matrix.mul_apply, Fin.sum_univ_succ] <;> field_simp <;> rw [e] <;> ring

theorem invert4_mul (m : Mat K 4 4) (h : Matrix.det (Matrix.of m) ≠ 0) :
    Matrix.of (invert4 m) * Matrix.of m = 1 := by
  rw [← det4] at h
  ext i j
  have e : (m 0 0 * (m 1 1 * (m 2 2 * m 3 3 - m 2 3 * m 3 2) - m 1 2 * (m 2 1 * m 3 3 - m 2 3 * m 3 1)
        + m 1 3 * (m 2 1 * m 3 2 - m 2 2 * m 3 1))
    - m 0 1 * (m 1 0 * (m 2 2 * m 3 3 - m 2 3 * m 3 2) - m 1 2 * (m 2 0 * m 3 3 - m 2 3 * m 3 0)
        + m 1 3 * (m 2 0 * m 3 2 - m 2 2 * m 3 0))
    + m 0 2 * (m 1 0 * (m 2 1 * m 3 3 - m 2 3 * m 3 1) - m 1 1 * (m 2 0 * m 3 3 - m 2 3 * m 3 0)
        + m 1 3 * (m 2 0 * m 3 1 - m 2 1 * m 3 0))
    - m 0 3 * (m 1 0 * (m 2 1 * m 3 2 - m 2 2 * m 3 1) - m 1 1 * (m 2 0 * m 3 2 - m 2 2 * m 3 0)
        + m 1 2 * (m 2 0 * m 3 1 - m 2 1 * m 3 0))) = rawDet4 0 1 2 3 0 1 2 3 m := rfl
  fin_cases i <;> fin_cases j <;>
    simp only [invert4, ofCols, Matrix.mul_apply, Fin.sum_univ_four, Matrix.of_apply, e, one_div] <;>
    simp <;> field_simp <;> rw [← e] <;> ring

end field
end Verif.Proofs.Matrix
