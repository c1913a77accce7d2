import Verif.Model.Shear
import Verif.Spec.Shear
import Verif.Proofs.Shear
import Verif.Proofs.Matrix
import Mathlib.LinearAlgebra.UnitaryGroup
import Mathlib.Tactic.Positivity
import Mathlib.Tactic.LinearCombination
import Mathlib.Algebra.BigOperators.Fin
import Mathlib.Tactic.FieldSimp
import Mathlib.Tactic.Linarith
import Mathlib.Tactic.FinCases

/-! # C145: shear of rotation matrices -/

namespace Verif.Props.Shear

open Verif.Model.Matrix Verif.Model.Vector Verif.Model.Transform Verif.Model.Shear Verif.Spec.Shear Verif.Proofs.Shear

/-- The first `n` components of column `j`. -/
def column {R C : ℕ} (n : ℕ) (hR : n ≤ R) (m : Mat ℝ R C) (j : Fin C) : Fin n → ℝ := fun i => m (Fin.castLE hR i) j

/-- A matrix has shear if two of its axes, the parts of its columns that rotate, are not perpendicular to within a thousandth: it does not
matter how long they are, nor what the other entries are. -/
theorem C145_shear (R C : ℕ) (m : Mat ℝ R C) :
    (∀ (hR : 2 ≤ R) (hC : 2 ≤ C), has2dShear hR hC m = true ↔ Skew (column 2 hR m ⟨0, by omega⟩) (column 2 hR m ⟨1, by omega⟩)) ∧
    (∀ (hR : 3 ≤ R) (hC : 3 ≤ C), has3dShear hR hC m = true ↔ ∃ j k : Fin 3, j ≠ k ∧ Skew (column 3 hR m (Fin.castLE hC j)) (column 3 hR m (Fin.castLE hC k))) := by
  constructor
  · intro hR hC
    unfold has2dShear
    dsimp only
    rw [Bool.not_eq_true', ← Bool.not_eq_true, orthogonal_iff (Or.inl rfl), not_not]
    rfl
  · intro hR hC
    unfold has3dShear
    dsimp only
    simp only [Bool.or_eq_true, Bool.not_eq_true', ← Bool.not_eq_true, orthogonal_iff (Or.inr rfl), not_not]
    constructor
    · rintro ((h | h) | h)
      · exact ⟨0, 1, by decide, h⟩
      · exact ⟨0, 2, by decide, h⟩
      · exact ⟨1, 2, by decide, h⟩
    · rintro ⟨j, k, hjk, h⟩
      have h' := skew_symm h
      fin_cases j <;> fin_cases k
      · exact absurd rfl hjk
      · exact Or.inl (Or.inl h)
      · exact Or.inl (Or.inr h)
      · exact Or.inl (Or.inl h')
      · exact absurd rfl hjk
      · exact Or.inr h
      · exact Or.inl (Or.inr h')
      · exact Or.inr h'
      · exact absurd rfl hjk

/-- A shear along the first axis: the answer is yes as soon as the slope shows. -/
example : has2dShear (R := 2) (C := 2) (by decide) (by decide) (fun i j => if i = j then 1 else if i = 0 then 1 / 2 else 0) = true := by
  rw [(C145_shear 2 2 _).1]
  unfold Skew column
  simp only [Fin.sum_univ_two]
  have h : √((2 ^ 2)⁻¹ + 1 : ℝ) ≤ 2 := by
    rw [Real.sqrt_le_left (by norm_num)]; norm_num
  simp
  linarith

/-- And the identity has none. -/
example : has2dShear (R := 2) (C := 2) (by decide) (by decide) (fun i j => if i = j then 1 else 0) = false := by
  rw [← Bool.not_eq_true, (C145_shear 2 2 _).1]
  unfold Skew column
  simp

/-- A rotation after a scaling by factors that are not zero has no shear. -/
theorem C145_scaled_rotation (q : Matrix (Fin 3) (Fin 3) ℝ) (hq : q ∈ Matrix.orthogonalGroup (Fin 3) ℝ) (x y z : ℝ) (hx : x ≠ 0) (hy : y ≠ 0) (hz : z ≠ 0) :
    has3dShear (by decide) (by decide) (mul (fun i j => q i j) (from3dScale 3 3 x y z)) = false := by
  have h := (Matrix.mem_orthogonalGroup_iff' (Fin 3) ℝ).mp hq
  have hcol : ∀ j k, q 0 j * q 0 k + q 1 j * q 1 k + q 2 j * q 2 k = if j = k then 1 else 0 := by
    intro j k
    have := congrFun (congrFun h j) k
    simpa [Matrix.mul_apply, Fin.sum_univ_three, Matrix.one_apply] using this
  have e : ∀ i j : Fin 3, mul (fun i j => q i j) (from3dScale 3 3 x y z) i j = q i j * ![x, y, z] j := by
    intro i j
    rw [Proofs.Matrix.mul_eq]
    fin_cases j <;> simp [Matrix.mul_apply, Fin.sum_univ_three, from3dScale, setAt, identity]
  have hs : ∀ j, ![x, y, z] j ≠ 0 := by
    intro j
    fin_cases j <;> assumption
  rw [← Bool.not_eq_true, (C145_shear 3 3 _).2]
  rintro ⟨j, k, hjk, hsk⟩
  unfold Skew column at hsk
  simp only [Fin.castLE_refl, e] at hsk
  generalize ![x, y, z] = s at hs hsk
  have h0 : ∑ i, q i j * s j * (q i k * s k) = 0 := by
    have := hcol j k
    rw [if_neg hjk] at this
    rw [Fin.sum_univ_three]
    linear_combination s j * s k * this
  have hp : ∀ j, 0 < √(∑ i, (q i j * s j) ^ 2) := by
    intro j
    apply Real.sqrt_pos.mpr
    have := hcol j j
    rw [if_pos rfl] at this
    have e2 : ∑ i, (q i j * s j) ^ 2 = s j ^ 2 := by
      rw [Fin.sum_univ_three]
      linear_combination s j ^ 2 * this
    rw [e2]
    exact by have := hs j; positivity
  rw [h0, abs_zero, mul_zero] at hsk
  exact absurd hsk (not_le.mpr (mul_pos (hp j) (hp k)))

/-- But a matrix with an axis of length zero, such as a scaling by zero, is said to have shear. -/
theorem C145_zero_scale_violated (x y : ℝ) : has3dShear (by decide) (by decide) (from3dScale 3 3 x y 0) = true := by
  rw [(C145_shear 3 3 _).2]
  refine ⟨0, 2, by decide, ?_⟩
  unfold Skew column
  simp [Fin.sum_univ_three, from3dScale, setAt, identity]

end Verif.Props.Shear
