import Verif.Proofs.Scalar
import Mathlib.Analysis.Real.Pi.Bounds
/-! # Lemmas about the normalization of angles with rounding -/
namespace Verif.Proofs.Angles
open Verif.Model.Scalar Verif.Spec.Float Verif.Proofs.Scalar

/-- The relative error of rounding, over the reals. -/
theorem rel (p : ℕ) (q : ℚ) : ∃ e : ℝ, |e| ≤ 1 / 2 ^ p ∧ (rnd p q : ℝ) = q * (1 + e) := by
  obtain ⟨e, h, r⟩ := rnd_rel p q
  refine ⟨e, ?_, by rw [r]; push_cast; ring⟩
  have : ((|e| : ℚ) : ℝ) ≤ ((1 / 2 ^ p : ℚ) : ℝ) := Rat.cast_le.2 h
  push_cast at this
  exact this

/-- A rounded constant: `d` is off from `c` by at most the part `s` of it. -/
theorem constant {p : ℕ} {q : ℚ} {c u : ℝ} (hu : u = 1 / 2 ^ p) (h1 : u ≤ 1 / 256) (c0 : 0 < c) (h : |(q : ℝ) - c| ≤ u / 2 * c) : |(rnd p q : ℝ) - c| ≤ 2 * u * c := by
  obtain ⟨e, he, r⟩ := rel p q
  rw [← hu] at he
  have u0 : 0 ≤ u := (abs_nonneg e).trans he
  have hq : |(q : ℝ)| ≤ c + u / 2 * c := by
    have := abs_add_le ((q : ℝ) - c) c
    rw [sub_add_cancel, abs_of_pos c0] at this
    linarith
  have t := abs_add_le ((q : ℝ) * e) ((q : ℝ) - c)
  rw [abs_mul] at t
  have m := mul_le_mul hq he (abs_nonneg _) ((abs_nonneg _).trans hq)
  have uu : u * (u * c) ≤ 1 / 256 * (u * c) := mul_le_mul_of_nonneg_right h1 (by positivity)
  have uc : 0 ≤ u * c := by positivity
  rw [r, show (q : ℝ) * (1 + e) - c = q * e + (q - c) by ring]
  nlinarith

theorem pi_bounds : (3.14159265358979323846 : ℝ) < Real.pi ∧ Real.pi < 3.14159265358979323847 := ⟨Real.pi_gt_d20, Real.pi_lt_d20⟩

/-- The unit of round-off for at most 60 bits. -/
theorem unit_ge {p : ℕ} (h : p ≤ 60) : (1 : ℝ) / 2 ^ 60 ≤ 1 / 2 ^ p :=
  one_div_le_one_div_of_le (by positivity) (pow_le_pow_right₀ (by norm_num) h)

theorem unit_le {p : ℕ} (h : 8 ≤ p) : (1 : ℝ) / 2 ^ p ≤ 1 / 256 := by
  have := one_div_le_one_div_of_le (by positivity) (pow_le_pow_right₀ (by norm_num : (1 : ℝ) ≤ 2) h)
  exact this.trans (by norm_num)

theorem twoPi_near {p : ℕ} (h8 : 8 ≤ p) (h60 : p ≤ 60) : |(twoPi p : ℝ) - 2 * Real.pi| ≤ 2 * (1 / 2 ^ p) * (2 * Real.pi) := by
  obtain ⟨a, b⟩ := pi_bounds
  have u := unit_ge h60
  refine constant rfl (unit_le h8) (by linarith) ?_
  have : (1 : ℝ) / 2 ^ 60 / 2 * 6 ≤ 1 / 2 ^ p / 2 * (2 * Real.pi) := by
    apply mul_le_mul _ (by linarith) (by norm_num) (by positivity)
    linarith
  refine le_trans ?_ this
  push_cast
  rw [abs_le]
  constructor <;> norm_num at * <;> linarith

theorem pi_near {p : ℕ} (h8 : 8 ≤ p) (h60 : p ≤ 60) : |(Model.Scalar.pi p : ℝ) - Real.pi| ≤ 2 * (1 / 2 ^ p) * Real.pi := by
  obtain ⟨a, b⟩ := pi_bounds
  have u := unit_ge h60
  refine constant rfl (unit_le h8) (by linarith) ?_
  have : (1 : ℝ) / 2 ^ 60 / 2 * 3 ≤ 1 / 2 ^ p / 2 * Real.pi := by
    apply mul_le_mul _ (by linarith) (by norm_num) (by positivity)
    linarith
  refine le_trans ?_ this
  push_cast
  rw [abs_le]
  constructor <;> norm_num at * <;> linarith

theorem inverse_near {p : ℕ} (h8 : 8 ≤ p) (h60 : p ≤ 60) : |(oneOverTwoPi p : ℝ) - 1 / (2 * Real.pi)| ≤ 2 * (1 / 2 ^ p) * (1 / (2 * Real.pi)) := by
  obtain ⟨a, b⟩ := pi_bounds
  have u := unit_ge h60
  have p0 : 0 < 2 * Real.pi := by linarith
  refine constant rfl (unit_le h8) (by positivity) ?_
  have e : ((159154943091895335769 / 10 ^ 21 : ℚ) : ℝ) - 1 / (2 * Real.pi) = (159154943091895335769 / 10 ^ 21 * (2 * Real.pi) - 1) * (1 / (2 * Real.pi)) := by
    push_cast
    field_simp
  rw [e, abs_mul, abs_of_pos (by positivity : 0 < 1 / (2 * Real.pi))]
  apply mul_le_mul_of_nonneg_right _ (by positivity)
  refine le_trans ?_ (by linarith : (1 : ℝ) / 2 ^ 60 / 2 ≤ 1 / 2 ^ p / 2)
  rw [abs_le]
  constructor <;> norm_num at * <;> linarith

/-- The step that both functions share. -/
def wrap (fused : Bool) (p : ℕ) (val : ℚ) : ℚ :=
  let k : ℚ := ⌊rnd p (val * oneOverTwoPi p)⌋
  if fused then rnd p (val - twoPi p * k) else rnd p (val - rnd p (twoPi p * k))

theorem wrap_near (fused : Bool) {p : ℕ} (h8 : 8 ≤ p) (h60 : p ≤ 60) (v : ℚ) : ∃ k : ℤ, |(wrap fused p v : ℝ) - (v - 2 * Real.pi * k)| ≤ (6 * |(v : ℝ)| + 29) / 2 ^ p ∧
    -((10 * |(v : ℝ)| + 29) / 2 ^ p) ≤ wrap fused p v ∧ (wrap fused p v : ℝ) ≤ 2 * Real.pi + (10 * |(v : ℝ)| + 29) / 2 ^ p := by
  obtain ⟨a, b⟩ := pi_bounds
  have hu1 := unit_le h8
  have ht := twoPi_near h8 h60
  have hw := inverse_near h8 h60
  obtain ⟨e1, he1, r1⟩ := rel p (v * oneOverTwoPi p)
  set u : ℝ := 1 / 2 ^ p with hu
  have u0 : 0 < u := by positivity
  set V : ℝ := |(v : ℝ)| with hV
  have V0 : 0 ≤ V := abs_nonneg _
  have uV : 0 ≤ u * V := by positivity
  have uuV : u * (u * V) ≤ 1 / 256 * (u * V) := mul_le_mul_of_nonneg_right hu1 uV
  set y : ℚ := rnd p (v * oneOverTwoPi p) with hy
  set k : ℤ := ⌊y⌋ with hk
  have k1 : (k : ℝ) ≤ y := by exact_mod_cast Int.floor_le y
  have k2 : (y : ℝ) < k + 1 := by exact_mod_cast Int.lt_floor_add_one y
  set W : ℝ := ((oneOverTwoPi p : ℚ) : ℝ) with hW
  -- the turn, multiplied back
  have hz : |2 * Real.pi * W - 1| ≤ 2 * u := by
    have e : 2 * Real.pi * W - 1 = (W - 1 / (2 * Real.pi)) * (2 * Real.pi) := by field_simp
    rw [e, abs_mul, abs_of_pos (by linarith : 0 < 2 * Real.pi)]
    have := mul_le_mul_of_nonneg_right hw (by linarith : 0 ≤ 2 * Real.pi)
    refine this.trans (le_of_eq ?_)
    field_simp
  have back : |2 * Real.pi * y - v| ≤ 4 * u * V := by
    have e : 2 * Real.pi * y - v = v * ((2 * Real.pi * W - 1) * (1 + e1) + e1) := by rw [r1]; push_cast; ring
    rw [e, abs_mul]
    have t := abs_add_le ((2 * Real.pi * W - 1) * (1 + e1)) e1
    rw [abs_mul] at t
    have t2 := abs_add_le 1 e1
    rw [abs_one] at t2
    have t3 := mul_le_mul hz (t2.trans (add_le_add_right he1 1)) (abs_nonneg _) (by positivity)
    have uu : u * u ≤ 1 / 256 * u := mul_le_mul_of_nonneg_right hu1 u0.le
    have t4 : |(2 * Real.pi * W - 1) * (1 + e1) + e1| ≤ 4 * u := by nlinarith
    have := mul_le_mul_of_nonneg_left t4 V0
    linarith
  have bk := abs_le.1 back
  have pk1 := mul_le_mul_of_nonneg_left k1 (by linarith : 0 ≤ 2 * Real.pi)
  have pk2 := mul_le_mul_of_nonneg_left k2.le (by linarith : 0 ≤ 2 * Real.pi)
  have low : -(4 * u * V) ≤ v - 2 * Real.pi * k := by linarith
  have high : v - 2 * Real.pi * k ≤ 2 * Real.pi + 4 * u * V := by linarith
  have K : |(k : ℝ)| ≤ V / 4 + 11 / 10 := by
    have h6 : 6 * |(k : ℝ)| ≤ 2 * Real.pi * |(k : ℝ)| := mul_le_mul_of_nonneg_right (by linarith) (abs_nonneg _)
    have hm : 2 * Real.pi * |(k : ℝ)| = |2 * Real.pi * (k : ℝ)| := by rw [abs_mul, abs_of_pos (by linarith : 0 < 2 * Real.pi)]
    have ab : |2 * Real.pi * (k : ℝ)| ≤ V + (2 * Real.pi + 4 * u * V) := by
      have v1 := neg_abs_le (v : ℝ)
      have v2 := le_abs_self (v : ℝ)
      rw [abs_le]
      constructor <;> linarith
    have : u * V ≤ 1 / 256 * V := mul_le_mul_of_nonneg_right hu1 V0
    linarith
  set τ : ℝ := ((twoPi p : ℚ) : ℝ) with hτ
  have uK : u * |(k : ℝ)| ≤ u * (V / 4 + 11 / 10) := mul_le_mul_of_nonneg_left K u0.le
  have off : |τ * k - 2 * Real.pi * k| ≤ 13 * (u * |(k : ℝ)|) := by
    rw [← sub_mul, abs_mul]
    have := mul_le_mul_of_nonneg_right ht (abs_nonneg (k : ℝ))
    have h13 : 2 * u * (2 * Real.pi) ≤ 13 * u := by
      have := mul_le_mul_of_nonneg_left (by linarith : 4 * Real.pi ≤ 13) u0.le
      linarith
    have := mul_le_mul_of_nonneg_right h13 (abs_nonneg (k : ℝ))
    linarith
  have τ7 : |τ| ≤ 7 := by
    have := abs_add_le (τ - 2 * Real.pi) (2 * Real.pi)
    rw [sub_add_cancel, abs_of_pos (by linarith : 0 < 2 * Real.pi)] at this
    have : 2 * u * (2 * Real.pi) ≤ 2 * (1 / 256) * (2 * Real.pi) := mul_le_mul_of_nonneg_right (by linarith) (by linarith)
    linarith
  -- before the last rounding
  obtain ⟨m, hm, hr⟩ : ∃ m : ℚ, |(m : ℝ) - (v - τ * k)| ≤ 7 * (u * |(k : ℝ)|) ∧ wrap fused p v = rnd p m := by
    cases fused
    · obtain ⟨e2, he2, r2⟩ := rel p (twoPi p * k)
      refine ⟨v - rnd p (twoPi p * k), ?_, rfl⟩
      push_cast at r2 ⊢
      rw [r2, ← hτ, show (v : ℝ) - τ * k * (1 + e2) - (v - τ * k) = -(τ * k * e2) by ring, abs_neg, abs_mul, abs_mul]
      have := mul_le_mul (mul_le_mul_of_nonneg_right τ7 (abs_nonneg (k : ℝ))) he2 (abs_nonneg _) (by positivity)
      linarith
    · refine ⟨v - twoPi p * k, ?_, rfl⟩
      push_cast
      rw [← hτ, sub_self, abs_zero]
      positivity
  obtain ⟨e3, he3, r3⟩ := rel p m
  have diff : |(m : ℝ) - (v - 2 * Real.pi * k)| ≤ 20 * (u * (V / 4 + 11 / 10)) := by
    have t := abs_add_le ((m : ℝ) - (v - τ * k)) (-(τ * k - 2 * Real.pi * k))
    rw [abs_neg, show (m : ℝ) - (v - τ * k) + -(τ * k - 2 * Real.pi * k) = m - (v - 2 * Real.pi * k) by ring] at t
    linarith
  have uV1 : u * V ≤ 1 / 256 * V := mul_le_mul_of_nonneg_right hu1 V0
  have d := abs_le.1 diff
  have M : |(m : ℝ)| ≤ 7 + V / 16 := by
    rw [abs_le]
    constructor <;> linarith
  have last : |(wrap fused p v : ℝ) - m| ≤ u * (7 + V / 16) := by
    rw [hr, r3, show (m : ℝ) * (1 + e3) - m = e3 * m by ring, abs_mul]
    exact mul_le_mul he3 M (abs_nonneg _) u0.le
  have l := abs_le.1 last
  have f6 : (6 * V + 29) / 2 ^ p = u * (6 * V + 29) := by rw [hu]; ring
  have f10 : (10 * V + 29) / 2 ^ p = u * (10 * V + 29) := by rw [hu]; ring
  rw [f6, f10]
  refine ⟨k, ?_, ?_, ?_⟩
  · rw [abs_le]
    constructor <;> linarith
  · linarith
  · linarith

end Verif.Proofs.Angles
