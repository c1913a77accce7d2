import Verif.Proofs.ConstTrig
import Mathlib.Analysis.SpecialFunctions.Trigonometric.Arctan

/-!
# Lemmas about `tan` in constant expressions
-/

namespace Verif.Proofs.ConstMath

open Verif.Model.ConstMath

local notation "pi" => Real.pi

/-- A value with a relative error. -/
def Rel (r : Option ℝ) (v ε : ℝ) : Prop := ∃ e, |e| ≤ ε ∧ r = some (v * (1 + e))

theorem Rel.mono {r : Option ℝ} {v ε δ : ℝ} (h : Rel r v ε) (hd : ε ≤ δ) : Rel r v δ :=
  let ⟨e, h1, h2⟩ := h; ⟨e, h1.trans hd, h2⟩

theorem Rel.exact (v ε : ℝ) (h : 0 ≤ ε) : Rel (some v) v ε := ⟨0, by simpa using h, by simp⟩

theorem Rel.neg {r : Option ℝ} {v ε : ℝ} (h : Rel r v ε) : Rel (r.map fun r => -r) (-v) ε := by
  obtain ⟨e, h1, rfl⟩ := h
  exact ⟨e, h1, by simp⟩

theorem rel_divide (s c e f ε δ : ℝ) (hc : c ≠ 0) (he : |e| ≤ ε) (hf : |f| ≤ ε) (h1 : ε ≤ 1 / 100) (hδ : 5 * ε ≤ 2 * δ) :
    Rel (divide (s * (1 + e)) (c * (1 + f))) (s / c) δ := by
  rw [abs_le] at he hf
  have hf1 : 0 < 1 + f := by linarith
  refine ⟨(e - f) / (1 + f), ?_, ?_⟩
  · rw [abs_div, abs_of_pos hf1, div_le_iff₀ hf1, abs_le]
    constructor <;> nlinarith
  · rw [divide, if_neg (by positivity)]
    congr 1
    field_simp
    ring

theorem rel_inv (v e ε δ : ℝ) (hv : v ≠ 0) (he : |e| ≤ ε) (h1 : ε ≤ 1 / 11) (hδ : 11 * ε ≤ 10 * δ) :
    Rel (divide 1 (v * (1 + e))) (1 / v) δ := by
  rw [abs_le] at he
  have hf1 : 0 < 1 + e := by linarith
  refine ⟨-e / (1 + e), ?_, ?_⟩
  · rw [abs_div, abs_of_pos hf1, div_le_iff₀ hf1, abs_le]
    constructor <;> nlinarith
  · rw [divide, if_neg (by positivity)]
    congr 1
    field_simp
    ring

theorem rel_double (t e ε : ℝ) (ht : t ^ 2 ≤ 18 / 100) (he : |e| ≤ ε) (h1 : ε ≤ 1 / 100) :
    Rel (divide (t * (1 + e) + t * (1 + e)) (1 - t * (1 + e) * (t * (1 + e)))) (2 * t / (1 - t ^ 2)) (2 * ε) := by
  have he' := abs_le.mp he
  have ht0 := sq_nonneg t
  have h2 : (1 + e) ^ 2 ≤ 103 / 100 := by nlinarith
  have h3 : 81 / 100 ≤ 1 - t ^ 2 * (1 + e) ^ 2 := by nlinarith [sq_nonneg (1 + e)]
  have hd : (0 : ℝ) < 1 - t ^ 2 * (1 + e) ^ 2 := by linarith
  have hd2 : (0 : ℝ) < 1 - t ^ 2 := by linarith
  refine ⟨e * (1 + t ^ 2 + e * t ^ 2) / (1 - t ^ 2 * (1 + e) ^ 2), ?_, ?_⟩
  · rw [abs_div, abs_of_pos hd, div_le_iff₀ hd, abs_mul]
    have : |1 + t ^ 2 + e * t ^ 2| ≤ 120 / 100 := by
      rw [abs_le]; constructor <;> nlinarith
    have h0 := abs_nonneg e
    calc |e| * |1 + t ^ 2 + e * t ^ 2| ≤ ε * (120 / 100) := mul_le_mul he this (abs_nonneg _) (by linarith)
      _ ≤ 2 * ε * (1 - t ^ 2 * (1 + e) ^ 2) := by nlinarith
  · have : 1 - t * (1 + e) * (t * (1 + e)) = 1 - t ^ 2 * (1 + e) ^ 2 := by ring
    rw [divide, this, if_neg hd.ne']
    congr 1
    generalize hD : 1 - t ^ 2 * (1 + e) ^ 2 = D at hd
    field_simp
    rw [← hD]
    ring

theorem tan_eighth : Real.tan (pi / 8) = √2 - 1 := by
  have hp := Real.pi_pos
  have h1 : 0 < Real.tan (pi / 8) := Real.tan_pos_of_pos_of_lt_pi_div_two (by linarith) (by linarith)
  have h2 := Real.tan_two_mul (x := pi / 8)
  rw [show 2 * (pi / 8) = pi / 4 by ring, Real.tan_pi_div_four] at h2
  generalize Real.tan (pi / 8) = t at *
  have h3 : 1 - t ^ 2 ≠ 0 := by
    intro h; rw [h, div_zero] at h2; norm_num at h2
  rw [eq_div_iff h3] at h2
  have h4 : √2 ^ 2 = 2 := Real.sq_sqrt (by norm_num)
  have h5 : (t + 1 - √2) * (t + 1 + √2) = 0 := by linear_combination h4 - h2 + 0 * h4 - 2 * h4 + h4 * 0
  have h6 : t + 1 + √2 ≠ 0 := by positivity
  have := (mul_eq_zero.mp h5).resolve_right h6
  linarith

theorem small_le (n : ℕ) (hn : 3 ≤ n) : small n ≤ 1 / 720 := by
  rw [small]
  apply one_div_le_one_div_of_le (by norm_num)
  have : Nat.factorial (2 * 3) ≤ Nat.factorial (2 * n) := Nat.factorial_le (by omega)
  have h2 : Nat.factorial (2 * 3) = 720 := by decide
  rw [h2] at this
  exact_mod_cast this

theorem tan_low (n : ℕ) (hn : 3 ≤ n) (d : ℕ) (x : ℝ) (h0 : 0 < x) (h1 : x < pi / 8) :
    Rel (tanNaive n (d + 2) x) (Real.tan x) (5 * small n) := by
  have hp := Real.pi_pos
  have hp4 : pi ≤ 4 := Real.pi_le_four
  have hs := small_pos n
  have hs2 := small_le n hn
  rw [tanNaive, if_neg h0.ne', reduce_id _ _ h0.le (by linarith), Option.bind_some, if_neg (by linarith), if_neg (by linarith),
    if_neg (by linarith), if_neg (by rintro ⟨h, -⟩; linarith), if_neg (by rintro ⟨h, -⟩; linarith),
    if_neg (by rintro ⟨h, -⟩; linarith), sin_low n (by omega) d x h0.le (by linarith), Option.bind_some,
    cos_low n (by omega) d x h0.le (by linarith), Option.bind_some]
  have a1 := sinSum_rel n x h0.le (by linarith)
  have a2 := cosSum_near n (by omega) x h0.le (by linarith)
  have b1 : x / 2 ≤ Real.sin x := by
    refine le_trans ?_ (Real.mul_le_sin h0.le (by linarith))
    rw [div_mul_eq_mul_div, le_div_iff₀ hp]
    nlinarith
  have b2 : 1 / 2 ≤ Real.cos x := by
    have := Real.one_sub_sq_div_two_le_cos (x := x)
    nlinarith
  have s0 : 0 < Real.sin x := by linarith
  have c0 : 0 < Real.cos x := by linarith
  rw [Real.tan_eq_sin_div_cos]
  have es : sinSum x n = Real.sin x * (1 + (sinSum x n - Real.sin x) / Real.sin x) := by field_simp; ring
  have ec : cosSum x n = Real.cos x * (1 + (cosSum x n - Real.cos x) / Real.cos x) := by field_simp; ring
  rw [es, ec]
  refine rel_divide _ _ _ _ (2 * small n) _ c0.ne' ?_ ?_ (by linarith) (by linarith)
  · rw [abs_div, abs_of_pos s0, div_le_iff₀ s0]
    nlinarith
  · rw [abs_div, abs_of_pos c0, div_le_iff₀ c0]
    nlinarith

theorem tan_mid (n : ℕ) (hn : 3 ≤ n) (d : ℕ) (x : ℝ) (h0 : 0 < x) (h1 : x < pi / 4) :
    Rel (tanNaive n (d + 3) x) (Real.tan x) (10 * small n) := by
  have hp := Real.pi_pos
  have hs := small_pos n
  have hs2 := small_le n hn
  by_cases h : x < pi / 8
  · exact (tan_low n hn (d + 1) x h0 h).mono (by linarith)
  by_cases h' : x = pi / 8
  · rw [tanNaive, if_neg h0.ne', reduce_id _ _ h0.le (by linarith), Option.bind_some, if_neg (by linarith), if_neg (by linarith),
      if_pos h', h', tan_eighth]
    exact Rel.exact _ _ (by linarith)
  have h2 : pi / 8 < x := lt_of_le_of_ne (not_lt.mp h) (Ne.symm h')
  rw [tanNaive, if_neg h0.ne', reduce_id _ _ h0.le (by linarith), Option.bind_some, if_neg (by linarith), if_neg (by linarith),
      if_neg h', if_neg (by rintro ⟨h, -⟩; linarith), if_neg (by rintro ⟨h, -⟩; linarith), if_pos ⟨h2, h1⟩]
  obtain ⟨e, he, hr⟩ := tan_low n hn d (x / 2) (by linarith) (by linarith)
  rw [hr, Option.bind_some]
  have ht : Real.tan x = 2 * Real.tan (x / 2) / (1 - Real.tan (x / 2) ^ 2) := by
    rw [← Real.tan_two_mul]; congr 1; ring
  have ht0 : 0 < Real.tan (x / 2) := Real.tan_pos_of_pos_of_lt_pi_div_two (by linarith) (by linarith)
  have ht1 : Real.tan (x / 2) < Real.tan (pi / 8) :=
    Real.tan_lt_tan_of_nonneg_of_lt_pi_div_two (by linarith) (by linarith) (by linarith)
  rw [tan_eighth] at ht1
  have h4 : √2 ^ 2 = 2 := Real.sq_sqrt (by norm_num)
  have h5 : √2 < 1.4143 := by rw [Real.sqrt_lt' (by norm_num)]; norm_num
  have := rel_double (Real.tan (x / 2)) e (5 * small n) (by nlinarith) he (by linarith)
  rw [← ht] at this
  exact this.mono (by linarith)

theorem tan_quarter (n : ℕ) (hn : 3 ≤ n) (d : ℕ) (x : ℝ) (h0 : 0 < x) (h1 : x < pi / 2) :
    Rel (tanNaive n (d + 4) x) (Real.tan x) (11 * small n) := by
  have hp := Real.pi_pos
  have hs := small_pos n
  have hs2 := small_le n hn
  by_cases h : x < pi / 4
  · exact (tan_mid n hn (d + 1) x h0 h).mono (by linarith)
  by_cases h' : x = pi / 4
  · rw [tanNaive, if_neg h0.ne', reduce_id _ _ h0.le (by linarith), Option.bind_some, if_neg (by linarith),
      if_pos h', h', Real.tan_pi_div_four]
    exact Rel.exact _ _ (by linarith)
  have h2 : pi / 4 < x := lt_of_le_of_ne (not_lt.mp h) (Ne.symm h')
  rw [tanNaive, if_neg h0.ne', reduce_id _ _ h0.le (by linarith), Option.bind_some, if_neg (by linarith),
      if_neg h', if_neg (by linarith), if_neg (by rintro ⟨h, -⟩; linarith), if_pos ⟨h2, h1⟩]
  obtain ⟨e, he, hr⟩ := tan_mid n hn d (pi / 2 - x) (by linarith) (by linarith)
  rw [hr, Option.bind_some]
  have ht0 : 0 < Real.tan (pi / 2 - x) := Real.tan_pos_of_pos_of_lt_pi_div_two (by linarith) (by linarith)
  have := rel_inv (Real.tan (pi / 2 - x)) e (10 * small n) (11 * small n) ht0.ne' he (by linarith) (by linarith)
  have ht : 1 / Real.tan (pi / 2 - x) = Real.tan x := by
    rw [one_div, Real.tan_pi_div_two_sub, inv_inv]
  rwa [ht] at this

/-- Within one period. -/
theorem tan_all (n : ℕ) (hn : 3 ≤ n) (d : ℕ) (x : ℝ) (h1 : -2 ^ 63 * pi ≤ x) (h2 : x < 2 ^ 63 * pi) (hc : Real.cos x ≠ 0) :
    Rel (tanNaive n (d + 5) x) (Real.tan x) (11 * small n) := by
  have hp := Real.pi_pos
  have hs := small_pos n
  rw [tanNaive]
  by_cases hx : x = 0
  · rw [if_pos hx, hx, Real.tan_zero]
    exact Rel.exact _ _ (by linarith)
  obtain ⟨k, hk, h0, h3⟩ := reduce_some pi x hp h1 h2
  rw [if_neg hx, hk, Option.bind_some]
  have e : Real.tan x = Real.tan (x - pi * k) := by
    rw [show x - pi * k = x - k * pi by ring, Real.tan_sub_int_mul_pi]
  have hc' : Real.cos (x - pi * k) ≠ 0 := by
    intro h
    apply hc
    have : x = x - pi * k + k * pi := by ring
    rw [this, Real.cos_add_int_mul_pi, h, mul_zero]
  rw [e]
  generalize x - pi * k = y at h0 h3 hc'
  have hy2 : y ≠ pi / 2 := by rintro rfl; exact hc' Real.cos_pi_div_two
  by_cases hy : y = pi
  · rw [if_pos hy, hy, Real.tan_pi]
    exact Rel.exact _ _ (by linarith)
  rw [if_neg hy]
  by_cases hq : pi / 2 < y
  · have h := tan_quarter n hn d (pi - y) (by linarith [lt_of_le_of_ne h3 hy]) (by linarith)
    rw [if_neg (by linarith), if_neg (by linarith), if_pos ⟨hq, lt_of_le_of_ne h3 hy⟩]
    rw [Real.tan_pi_sub] at h
    simpa using h.neg
  have hlt : y < pi / 2 := lt_of_le_of_ne (not_lt.mp hq) hy2
  rcases eq_or_lt_of_le h0 with h | h
  · rw [← h, if_neg (by linarith), if_neg (by linarith), if_neg (by rintro ⟨h, -⟩; linarith), if_neg (by rintro ⟨h, -⟩; linarith),
      if_neg (by rintro ⟨h, -⟩; linarith), sin_low n (by omega) _ 0 le_rfl (by linarith), Option.bind_some,
      cos_low n (by omega) _ 0 le_rfl (by linarith), Option.bind_some, sinSum_zero, cosSum_zero n (by omega), divide,
      if_neg (by norm_num), Real.tan_zero, zero_div]
    exact Rel.exact _ _ (by linarith)
  · have := tan_quarter n hn (d + 1) y h hlt
    rw [tanNaive, if_neg h.ne', reduce_id _ _ h.le (by linarith), Option.bind_some, if_neg hy] at this
    exact this

/-- Where the cosine is zero, the program divides by zero. -/
theorem tan_none (n : ℕ) (d : ℕ) (x : ℝ) (h1 : -2 ^ 63 * pi ≤ x) (h2 : x < 2 ^ 63 * pi) (hc : Real.cos x = 0) :
    tanNaive n (d + 2) x = none := by
  have hp := Real.pi_pos
  have hx : x ≠ 0 := by rintro rfl; rw [Real.cos_zero] at hc; norm_num at hc
  obtain ⟨k, hk, h0, h3⟩ := reduce_some pi x hp h1 h2
  rw [tanNaive, if_neg hx, hk, Option.bind_some]
  have hc' : Real.cos (x - pi * k) = 0 := by
    rw [show x - pi * k = x - k * pi by ring, Real.cos_sub_int_mul_pi, hc, mul_zero]
  generalize x - pi * k = y at h0 h3 hc'
  have hy2 : y = pi / 2 := by
    rcases lt_trichotomy y (pi / 2) with h | h | h
    · exact absurd hc' (Real.cos_pos_of_mem_Ioo ⟨by linarith, h⟩).ne'
    · exact h
    · exact absurd hc' (Real.cos_neg_of_pi_div_two_lt_of_lt h (by linarith)).ne
  have hcos : cosNaive n (d + 1) (pi / 2) = some 0 := by
    rw [cosNaive, reduce_id _ _ (by linarith) (by linarith), Option.bind_some, if_neg (by rintro (h | h) <;> linarith),
      if_pos (Or.inl rfl)]
  have hsin : sinNaive n (d + 1) (pi / 2) = some 1 := by
    rw [sinNaive, if_neg (by linarith), reduce_id _ _ (by linarith) (by linarith), Option.bind_some, if_neg (by linarith),
      if_pos rfl]
  rw [hy2, if_neg (by linarith), if_neg (by linarith), if_neg (by linarith), if_neg (by rintro ⟨h, -⟩; linarith),
    if_neg (by rintro ⟨-, h⟩; linarith), if_neg (by rintro ⟨-, h⟩; linarith), hsin, hcos]
  simp [divide]

end Verif.Proofs.ConstMath
