import Verif.Model.Ray
import Verif.Spec.Rays
import Verif.Proofs.Boxes
import Verif.Proofs.Sphere

/-!
# Lemmas about rays
-/

namespace Verif.Proofs.Ray

open Verif.Model.Matrix Verif.Model.Vector Verif.Model.Geometry Verif.Model.Boxes Verif.Model.Ray
open Verif.Proofs.Vector Verif.Proofs.Geometry Verif.Proofs.Boxes Verif.Spec.Geometry Verif.Spec.Rays

open scoped Matrix

theorem at3 (o d : Point) (t : ℝ) (i : Fin 3) : (o + t • d) i = o i + t * d i := rfl

/-! ## Triangles -/

/-- The coordinates of the point of the line in the plane of the triangle (Cramer's rule). -/
theorem cramer {o d p0 p1 p2 : Point} {u v t : ℝ}
    (hd : dot (fun i => p1 i - p0 i) (cross d (fun i => p2 i - p0 i)) ≠ 0) :
    (∀ i, o i + t * d i = p0 i + u * (p1 i - p0 i) + v * (p2 i - p0 i)) ↔
      u = dot (fun i => o i - p0 i) (cross d (fun i => p2 i - p0 i)) * (1 / dot (fun i => p1 i - p0 i) (cross d (fun i => p2 i - p0 i))) ∧
      v = dot d (cross (fun i => o i - p0 i) (fun i => p1 i - p0 i)) * (1 / dot (fun i => p1 i - p0 i) (cross d (fun i => p2 i - p0 i))) ∧
      t = dot (fun i => p2 i - p0 i) (cross (fun i => o i - p0 i) (fun i => p1 i - p0 i)) *
        (1 / dot (fun i => p1 i - p0 i) (cross d (fun i => p2 i - p0 i))) := by
  obtain ⟨a0, a1, a2⟩ := cross3 d (fun i => p2 i - p0 i)
  obtain ⟨b0, b1, b2⟩ := cross3 (fun i => o i - p0 i) (fun i => p1 i - p0 i)
  have hdet : dot (fun i => p1 i - p0 i) (cross d (fun i => p2 i - p0 i)) = (p1 0 - p0 0) * (d 1 * (p2 2 - p0 2) - d 2 * (p2 1 - p0 1)) +
      (p1 1 - p0 1) * (d 2 * (p2 0 - p0 0) - d 0 * (p2 2 - p0 2)) + (p1 2 - p0 2) * (d 0 * (p2 1 - p0 1) - d 1 * (p2 0 - p0 0)) := by
    rw [dot_dp, dp3, a0, a1, a2]
  have hu : dot (fun i => o i - p0 i) (cross d (fun i => p2 i - p0 i)) = (o 0 - p0 0) * (d 1 * (p2 2 - p0 2) - d 2 * (p2 1 - p0 1)) +
      (o 1 - p0 1) * (d 2 * (p2 0 - p0 0) - d 0 * (p2 2 - p0 2)) + (o 2 - p0 2) * (d 0 * (p2 1 - p0 1) - d 1 * (p2 0 - p0 0)) := by
    rw [dot_dp, dp3, a0, a1, a2]
  have hv : dot d (cross (fun i => o i - p0 i) (fun i => p1 i - p0 i)) = d 0 * ((o 1 - p0 1) * (p1 2 - p0 2) - (o 2 - p0 2) * (p1 1 - p0 1)) +
      d 1 * ((o 2 - p0 2) * (p1 0 - p0 0) - (o 0 - p0 0) * (p1 2 - p0 2)) + d 2 * ((o 0 - p0 0) * (p1 1 - p0 1) - (o 1 - p0 1) * (p1 0 - p0 0)) := by
    rw [dot_dp, dp3, b0, b1, b2]
  have ht : dot (fun i => p2 i - p0 i) (cross (fun i => o i - p0 i) (fun i => p1 i - p0 i)) =
      (p2 0 - p0 0) * ((o 1 - p0 1) * (p1 2 - p0 2) - (o 2 - p0 2) * (p1 1 - p0 1)) +
      (p2 1 - p0 1) * ((o 2 - p0 2) * (p1 0 - p0 0) - (o 0 - p0 0) * (p1 2 - p0 2)) +
      (p2 2 - p0 2) * ((o 0 - p0 0) * (p1 1 - p0 1) - (o 1 - p0 1) * (p1 0 - p0 0)) := by
    rw [dot_dp, dp3, b0, b1, b2]
  rw [hdet] at hd ⊢
  rw [hu, hv, ht]
  clear hdet hu hv ht a0 a1 a2 b0 b1 b2
  generalize hD : (p1 0 - p0 0) * (d 1 * (p2 2 - p0 2) - d 2 * (p2 1 - p0 1)) +
      (p1 1 - p0 1) * (d 2 * (p2 0 - p0 0) - d 0 * (p2 2 - p0 2)) + (p1 2 - p0 2) * (d 0 * (p2 1 - p0 1) - d 1 * (p2 0 - p0 0)) = D at *
  simp only [mul_one_div, eq_div_iff hd]
  constructor
  · intro h
    have h0 := h 0
    have h1 := h 1
    have h2 := h 2
    refine ⟨?_, ?_, ?_⟩
    · rw [← hD]
      linear_combination (-(d 1 * (p2 2 - p0 2) - d 2 * (p2 1 - p0 1))) * h0 - (d 2 * (p2 0 - p0 0) - d 0 * (p2 2 - p0 2)) * h1 -
        (d 0 * (p2 1 - p0 1) - d 1 * (p2 0 - p0 0)) * h2
    · rw [← hD]
      linear_combination (-((p1 1 - p0 1) * d 2 - (p1 2 - p0 2) * d 1)) * h0 - ((p1 2 - p0 2) * d 0 - (p1 0 - p0 0) * d 2) * h1 -
        ((p1 0 - p0 0) * d 1 - (p1 1 - p0 1) * d 0) * h2
    · rw [← hD]
      linear_combination (-((p1 1 - p0 1) * (p2 2 - p0 2) - (p1 2 - p0 2) * (p2 1 - p0 1))) * h0 -
        ((p1 2 - p0 2) * (p2 0 - p0 0) - (p1 0 - p0 0) * (p2 2 - p0 2)) * h1 -
        ((p1 0 - p0 0) * (p2 1 - p0 1) - (p1 1 - p0 1) * (p2 0 - p0 0)) * h2
  · rintro ⟨h0, h1, h2⟩ i
    apply mul_left_cancel₀ hd
    rw [show D * (o i + t * d i) = D * o i + (t * D) * d i by ring,
      show D * (p0 i + u * (p1 i - p0 i) + v * (p2 i - p0 i)) = D * p0 i + (u * D) * (p1 i - p0 i) + (v * D) * (p2 i - p0 i) by ring,
      h0, h1, h2, ← hD]
    fin_cases i <;> simp only [Fin.zero_eta, Fin.mk_one, Fin.reduceFinMk] <;> ring

/-! ## Extended numbers -/

theorem lt_some (a b : EReal) : XR.lt (some a) (some b) = decide (a < b) := rfl

theorem xmin_some (a b : EReal) : xmin (some a) (some b) = some (min a b) := by
  rw [xmin, lt_some]
  by_cases h : a < b
  · rw [if_pos (by simpa using h), min_eq_left h.le]
  · rw [if_neg (by simpa using h), min_eq_right (not_lt.mp h)]

theorem xmax_some (a b : EReal) : xmax (some a) (some b) = some (max a b) := by
  rw [xmax, lt_some]
  by_cases h : a < b
  · rw [if_pos (by simpa using h), max_eq_right h.le]
  · rw [if_neg (by simpa using h), max_eq_left (not_lt.mp h)]

/-- The interval of one coordinate. -/
theorem slab (neg : Bool) {lo hi o d : ℝ} (h : lo ≤ hi) (hr : d = 0 → lo ≠ o ∧ hi ≠ o) :
    ∃ a b : EReal, xmin (xdiv neg (lo - o) d) (xdiv neg (hi - o) d) = some a ∧ xmax (xdiv neg (lo - o) d) (xdiv neg (hi - o) d) = some b ∧
      (∀ s : ℝ, (lo ≤ o + s * d ∧ o + s * d ≤ hi) ↔ a ≤ (s : EReal) ∧ (s : EReal) ≤ b) ∧ (d ≠ 0 → a ≠ ⊥ ∧ b ≠ ⊤) := by
  by_cases hd : d = 0
  · obtain ⟨h1, h2⟩ := hr hd
    have key : ∃ a b : EReal, xdiv neg (lo - o) d = some a ∧ xdiv neg (hi - o) d = some b ∧
        (∀ s : ℝ, (lo ≤ o + s * d ∧ o + s * d ≤ hi) ↔ min a b ≤ (s : EReal) ∧ (s : EReal) ≤ max a b) := by
      subst hd
      unfold xdiv
      simp only [ne_eq, not_true_eq_false, if_false, sub_eq_zero, h1, h2, sub_pos, mul_zero, add_zero]
      rcases lt_or_gt_of_ne h1 with h1 | h1 <;> rcases lt_or_gt_of_ne h2 with h2 | h2
      · cases neg
        · refine ⟨⊥, ⊥, by simp [h1.le], by simp [h2.le], fun s => ?_⟩
          simp [not_le.mpr h2]
        · refine ⟨⊤, ⊤, by simp [h1.le], by simp [h2.le], fun s => ?_⟩
          simp [not_le.mpr h2]
      · cases neg
        · refine ⟨⊥, ⊤, by simp [h1.le], by simp [h2], fun s => ?_⟩
          simp [h1.le, h2.le]
        · refine ⟨⊤, ⊥, by simp [h1.le], by simp [h2], fun s => ?_⟩
          simp [h1.le, h2.le]
      · exact absurd (h.trans_lt h2) (not_lt.mpr h1.le)
      · cases neg
        · refine ⟨⊤, ⊤, by simp [h1], by simp [h2], fun s => ?_⟩
          simp [not_le.mpr h1]
        · refine ⟨⊥, ⊥, by simp [h1], by simp [h2], fun s => ?_⟩
          simp [not_le.mpr h1]
    obtain ⟨a, b, ha, hb, hs⟩ := key
    exact ⟨min a b, max a b, by rw [ha, hb, xmin_some], by rw [ha, hb, xmax_some], hs, fun h => absurd hd h⟩
  · refine ⟨min ((lo - o) / d : ℝ) ((hi - o) / d : ℝ), max ((lo - o) / d : ℝ) ((hi - o) / d : ℝ), ?_, ?_, fun s => ?_, fun _ => ⟨?_, ?_⟩⟩
    · rw [xdiv, xdiv, if_pos hd, if_pos hd, xmin_some]
    · rw [xdiv, xdiv, if_pos hd, if_pos hd, xmax_some]
    · rw [min_le_iff, le_max_iff, EReal.coe_le_coe_iff, EReal.coe_le_coe_iff, EReal.coe_le_coe_iff, EReal.coe_le_coe_iff]
      rcases lt_or_gt_of_ne hd with hn | hp
      · rw [div_le_iff_of_neg hn, div_le_iff_of_neg hn, le_div_iff_of_neg hn, le_div_iff_of_neg hn]
        constructor
        · rintro ⟨h1, h2⟩
          exact ⟨Or.inr (by linarith), Or.inl (by linarith)⟩
        · rintro ⟨h1 | h1, h2 | h2⟩ <;> constructor <;> linarith
      · rw [div_le_iff₀ hp, div_le_iff₀ hp, le_div_iff₀ hp, le_div_iff₀ hp]
        constructor
        · rintro ⟨h1, h2⟩
          exact ⟨Or.inl (by linarith), Or.inr (by linarith)⟩
        · rintro ⟨h1 | h1, h2 | h2⟩ <;> constructor <;> linarith
    · rcases min_choice (((lo - o) / d : ℝ) : EReal) ((hi - o) / d : ℝ) with h | h <;> rw [h] <;> exact EReal.coe_ne_bot _
    · rcases max_choice (((lo - o) / d : ℝ) : EReal) ((hi - o) / d : ℝ) with h | h <;> rw [h] <;> exact EReal.coe_ne_top _

end Verif.Proofs.Ray
