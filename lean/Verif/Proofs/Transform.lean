import Mathlib.LinearAlgebra.UnitaryGroup
import Verif.Model.Transform
import Verif.Proofs.Matrix
import Verif.Proofs.Vector

/-! Lemmas about the transformation matrices. -/

namespace Verif.Proofs.Transform

open Verif.Model.Matrix Verif.Model.Vector Verif.Model.Transform Verif.Proofs.Matrix Verif.Proofs.Vector

variable {K : Type*}

theorem dot3 [CommRing K] (v w : Fin 3 → K) : dot v w = v 0 * w 0 + v 1 * w 1 + v 2 * w 2 := by
  rw [dot_eq, Fin.sum_univ_three]

theorem without_eq [CommRing K] {R C : ℕ} (hR : 3 ≤ R) (hC : 3 ≤ C) (m : Mat K R C) (d : Fin 3 → K) (i : Fin 3) :
    transformWithoutTranslating hR hC m d i = ∑ j, m (Fin.castLE hR i) (Fin.castLE hC j) * d j := by
  rw [Fin.sum_univ_three]; fin_cases i <;> rfl

theorem pos34_eq [Field K] (m : Mat K 3 4) (p : Fin 3 → K) (i : Fin 3) :
    transformPosition34 m p i = ∑ j : Fin 3, m i j.castSucc * p j + m i 3 := by
  rw [Fin.sum_univ_three]; fin_cases i <;> simp [transformPosition34]

theorem pos44_eq [Field K] (m : Mat K 4 4) (p : Fin 3 → K) (i : Fin 3) :
    transformPosition44 m p i
      = (∑ j : Fin 3, m i.castSucc j.castSucc * p j + m i.castSucc 3) / transformW m p := by
  rw [Fin.sum_univ_three]; fin_cases i <;> simp [transformPosition44] <;> rw [div_eq_inv_mul]

/-- A unit vector and a positive factor. -/
theorem columnNormalize_spec (v : Fin 3 → ℝ) (hv : v ≠ 0) :
    ∃ n : ℝ, 0 < n ∧ (∀ i, v i = n * columnNormalize v i) ∧ dot (columnNormalize v) (columnNormalize v) = 1 ∧
      n ^ 2 = dot v v := by
  have h0 : 0 < v 0 * v 0 + v 1 * v 1 + v 2 * v 2 := by
    have := lengthSquared_nonneg v
    have h2 := (lengthSquared_eq_zero v).not.mpr hv
    have h3 : lengthSquared v = v 0 * v 0 + v 1 * v 1 + v 2 * v 2 := dot3 v v
    rw [← h3]; exact lt_of_le_of_ne this (Ne.symm h2)
  have hs := Real.sqrt_pos.mpr h0
  have hsq := Real.sq_sqrt h0.le
  refine ⟨Real.sqrt (v 0 * v 0 + v 1 * v 1 + v 2 * v 2), hs, ?_, ?_, ?_⟩
  · intro i
    simp only [columnNormalize]
    generalize Real.sqrt (v 0 * v 0 + v 1 * v 1 + v 2 * v 2) = s at *
    fin_cases i <;> simp <;> field_simp
  · rw [dot3]
    simp only [columnNormalize]
    generalize Real.sqrt (v 0 * v 0 + v 1 * v 1 + v 2 * v 2) = s at *
    simp
    field_simp
    linarith
  · rw [hsq, dot3]

theorem columnNormalize_unit (v : Fin 3 → ℝ) (hv : dot v v = 1) : columnNormalize v = v := by
  rw [dot3] at hv
  funext i
  simp only [columnNormalize, hv, Real.sqrt_one]
  fin_cases i <;> simp

theorem sdm (out c1 c2 : Fin 3 → ℝ) (i : Fin 3) : subtractDotMult out c1 c2 i = out i - dot c1 c2 * c2 i := by
  rw [dot3]; fin_cases i <;> rfl

/-- Three times three, written out. -/
def triple (a b c : Fin 3 → ℝ) : ℝ :=
  a 0 * b 1 * c 2 - a 0 * c 1 * b 2 - b 0 * a 1 * c 2 + b 0 * c 1 * a 2 + c 0 * a 1 * b 2 - c 0 * b 1 * a 2

/-- The Gram–Schmidt process: three orthonormal axes and a triangular matrix with positive diagonal. -/
theorem orthoAxes_spec (a b c : Fin 3 → ℝ) (h : triple a b c ≠ 0) :
    ∃ o0 o1 o2 : Fin 3 → ℝ, orthoAxes a b c = (o0, o1, o2) ∧
      dot o0 o0 = 1 ∧ dot o1 o1 = 1 ∧ dot o2 o2 = 1 ∧ dot o0 o1 = 0 ∧ dot o0 o2 = 0 ∧ dot o1 o2 = 0 ∧
      ∃ t00 t01 t11 t02 t12 t22 : ℝ, 0 < t00 ∧ 0 < t11 ∧ 0 < t22 ∧ (∀ i, a i = t00 * o0 i) ∧
        (∀ i, b i = t01 * o0 i + t11 * o1 i) ∧ (∀ i, c i = t02 * o0 i + t12 * o1 i + t22 * o2 i) := by
  have ha : a ≠ 0 := by
    rintro rfl; apply h; simp [triple]
  obtain ⟨n0, hn0, ea, u0, -⟩ := columnNormalize_spec a ha
  set o0 := columnNormalize a with ho0
  have hb : subtractDotMult b b o0 ≠ 0 := by
    intro hz
    have e : ∀ i, b i = dot b o0 * o0 i := by
      intro i
      have := congrFun hz i
      rw [sdm, Pi.zero_apply] at this
      linarith
    apply h
    have e0 := e 0; have e1 := e 1; have e2 := e 2
    generalize dot b o0 = k at *
    rw [triple, ea 0, ea 1, ea 2, e0, e1, e2]; ring
  obtain ⟨n1, hn1, eb, u1, -⟩ := columnNormalize_spec _ hb
  set o1 := columnNormalize (subtractDotMult b b o0) with ho1
  have d01 : dot o0 o1 = 0 := by
    have e0 := eb 0; have e1 := eb 1; have e2 := eb 2
    rw [sdm] at e0 e1 e2
    have : n1 * dot o0 o1 = 0 := by
      have hb0 : n1 * dot o0 o1 = o0 0 * (n1 * o1 0) + o0 1 * (n1 * o1 1) + o0 2 * (n1 * o1 2) := by
        rw [dot3]; ring
      rw [hb0, ← e0, ← e1, ← e2]
      have : dot b o0 = b 0 * o0 0 + b 1 * o0 1 + b 2 * o0 2 := dot3 _ _
      have hu : o0 0 * o0 0 + o0 1 * o0 1 + o0 2 * o0 2 = 1 := by rw [← dot3]; exact u0
      generalize dot b o0 = k at *
      calc _ = (b 0 * o0 0 + b 1 * o0 1 + b 2 * o0 2) - k * (o0 0 * o0 0 + o0 1 * o0 1 + o0 2 * o0 2) := by ring
        _ = 0 := by rw [hu, ← this]; ring
    exact (mul_eq_zero.mp this).resolve_left hn1.ne'
  set c1 := subtractDotMult c c o0 with hc1
  have ec1 : ∀ i, c1 i = c i - dot c o0 * o0 i := fun i => sdm _ _ _ i
  have dc1 : dot c1 o0 = 0 := by
    rw [dot3, ec1, ec1, ec1]
    have : dot c o0 = c 0 * o0 0 + c 1 * o0 1 + c 2 * o0 2 := dot3 _ _
    have hu : o0 0 * o0 0 + o0 1 * o0 1 + o0 2 * o0 2 = 1 := by rw [← dot3]; exact u0
    generalize dot c o0 = k at *
    calc _ = (c 0 * o0 0 + c 1 * o0 1 + c 2 * o0 2) - k * (o0 0 * o0 0 + o0 1 * o0 1 + o0 2 * o0 2) := by ring
      _ = 0 := by rw [hu, ← this]; ring
  have ec2 : ∀ i, subtractDotMult c1 c1 o1 i = c1 i - dot c1 o1 * o1 i := fun i => sdm _ _ _ i
  have hbe : ∀ i, b i = dot b o0 * o0 i + n1 * o1 i := by
    intro i; have := eb i; rw [sdm] at this; linarith
  have hc : subtractDotMult c1 c1 o1 ≠ 0 := by
    intro hz
    have e : ∀ i, c i = dot c o0 * o0 i + dot c1 o1 * o1 i := by
      intro i
      have := congrFun hz i
      rw [ec2, ec1, Pi.zero_apply] at this
      linarith
    apply h
    have e0 := e 0; have e1 := e 1; have e2 := e 2
    have b0 := hbe 0; have b1 := hbe 1; have b2 := hbe 2
    generalize dot c o0 = k at *
    generalize dot c1 o1 = l at *
    generalize dot b o0 = k' at *
    rw [triple, ea 0, ea 1, ea 2, e0, e1, e2, b0, b1, b2]; ring
  obtain ⟨n2, hn2, ec, u2, -⟩ := columnNormalize_spec _ hc
  set o2 := columnNormalize (subtractDotMult c1 c1 o1) with ho2
  have hu0 : o0 0 * o0 0 + o0 1 * o0 1 + o0 2 * o0 2 = 1 := by rw [← dot3]; exact u0
  have hu1 : o1 0 * o1 0 + o1 1 * o1 1 + o1 2 * o1 2 = 1 := by rw [← dot3]; exact u1
  have h01 : o0 0 * o1 0 + o0 1 * o1 1 + o0 2 * o1 2 = 0 := by rw [← dot3]; exact d01
  have d02 : dot o0 o2 = 0 := by
    have e0 := ec 0; have e1 := ec 1; have e2 := ec 2
    rw [ec2] at e0 e1 e2
    have : n2 * dot o0 o2 = 0 := by
      have hb0 : n2 * dot o0 o2 = o0 0 * (n2 * o2 0) + o0 1 * (n2 * o2 1) + o0 2 * (n2 * o2 2) := by
        rw [dot3]; ring
      rw [hb0, ← e0, ← e1, ← e2]
      rw [dot3] at dc1
      generalize dot c1 o1 = k at *
      calc _ = (c1 0 * o0 0 + c1 1 * o0 1 + c1 2 * o0 2) - k * (o0 0 * o1 0 + o0 1 * o1 1 + o0 2 * o1 2) := by ring
        _ = 0 := by rw [h01, dc1]; ring
    exact (mul_eq_zero.mp this).resolve_left hn2.ne'
  have d12 : dot o1 o2 = 0 := by
    have e0 := ec 0; have e1 := ec 1; have e2 := ec 2
    rw [ec2] at e0 e1 e2
    have : n2 * dot o1 o2 = 0 := by
      have hb0 : n2 * dot o1 o2 = o1 0 * (n2 * o2 0) + o1 1 * (n2 * o2 1) + o1 2 * (n2 * o2 2) := by
        rw [dot3]; ring
      rw [hb0, ← e0, ← e1, ← e2]
      have hk : dot c1 o1 = c1 0 * o1 0 + c1 1 * o1 1 + c1 2 * o1 2 := dot3 _ _
      generalize dot c1 o1 = k at *
      calc _ = (c1 0 * o1 0 + c1 1 * o1 1 + c1 2 * o1 2) - k * (o1 0 * o1 0 + o1 1 * o1 1 + o1 2 * o1 2) := by ring
        _ = 0 := by rw [hu1, ← hk]; ring
    exact (mul_eq_zero.mp this).resolve_left hn2.ne'
  refine ⟨o0, o1, o2, rfl, u0, u1, u2, d01, d02, d12, n0, dot b o0, n1, dot c o0, dot c1 o1, n2, hn0, hn1, hn2, ea,
    hbe, ?_⟩
  intro i
  have := ec i
  rw [ec2, ec1] at this
  linarith

end Verif.Proofs.Transform
