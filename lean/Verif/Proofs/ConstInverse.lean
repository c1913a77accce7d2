import Verif.Proofs.ConstTan
import Mathlib.Analysis.SpecialFunctions.Trigonometric.ArctanDeriv
import Mathlib.Analysis.SpecialFunctions.Trigonometric.InverseDeriv
import Mathlib.Analysis.SpecialFunctions.Complex.Arg
import Mathlib.Analysis.SpecialFunctions.Sqrt

/-!
# Lemmas about `atan`, `atan2`, `asin` and `acos` in constant expressions
-/

namespace Verif.Proofs.ConstMath

open Verif.Model.ConstMath

local notation "pi" => Real.pi

/-! ## Euler's series -/

/-- `2/3 · 4/5 · …` -/
noncomputable def coeff : ℕ → ℝ
  | 0 => 1
  | k + 1 => coeff k * (2 * (k + 1 : ℕ) / (2 * (k + 1 : ℕ) + 1))

theorem coeff_pos (k : ℕ) : 0 < coeff k := by
  induction k with
  | zero => exact one_pos
  | succ k ih => rw [coeff]; positivity

theorem coeff_le_one (k : ℕ) : coeff k ≤ 1 := by
  induction k with
  | zero => exact le_rfl
  | succ k ih =>
    rw [coeff]
    have h2 : 2 * ((k + 1 : ℕ) : ℝ) / (2 * (k + 1 : ℕ) + 1) ≤ 1 := by
      rw [div_le_one (by positivity)]; linarith
    exact mul_le_one₀ ih (by positivity) h2

theorem coeff_succ (k : ℕ) : coeff (k + 1) * (2 * k + 3) = coeff k * (2 * k + 2) := by
  rw [coeff]; push_cast; field_simp; ring

/-- The sum of the first `n` terms. -/
noncomputable def euler (q : ℝ) (n : ℕ) : ℝ := ∑ k ∈ Finset.range n, coeff k * q ^ k

theorem atanLoop_eq (y : ℝ) (hy : 0 ≤ y) (n i : ℕ) (hi : 1 ≤ i) (hn : i ≤ n + 1) :
    atanLoop y n i (coeff (i - 1) * (y / (y + 1)) ^ (i - 1)) (euler (y / (y + 1)) i) = euler (y / (y + 1)) (n + 1) := by
  obtain ⟨m, hm⟩ : ∃ m, m = n + 1 - i := ⟨_, rfl⟩
  induction m generalizing i with
  | zero =>
    rw [atanLoop, if_neg (by omega), show i = n + 1 by omega]
  | succ m ih =>
    obtain ⟨k, rfl⟩ : ∃ k, i = k + 1 := ⟨i - 1, by omega⟩
    rw [atanLoop, if_pos (by omega)]
    have hy1 : (0 : ℝ) < y + 1 := by linarith
    have e : coeff (k + 1 - 1) * (y / (y + 1)) ^ (k + 1 - 1) * (2 * ((k + 1 : ℕ) : ℝ) * y / ((2 * ((k + 1 : ℕ) : ℝ) + 1) * (y + 1))) =
        coeff (k + 1) * (y / (y + 1)) ^ (k + 1) := by
      rw [Nat.add_sub_cancel, coeff, pow_succ]
      field_simp
    simp only [e]
    have e2 : euler (y / (y + 1)) (k + 1) + coeff (k + 1) * (y / (y + 1)) ^ (k + 1) = euler (y / (y + 1)) (k + 2) := by
      rw [euler, euler, Finset.sum_range_succ _ (k + 1)]
    rw [e2]
    have step := ih (k + 2) (by omega) (by omega) (by omega)
    rw [show k + 2 - 1 = k + 1 by omega] at step
    split_ifs with h
    · have h0 : coeff (k + 1) * (y / (y + 1)) ^ (k + 1) = 0 := by linarith
      have hq : y / (y + 1) = 0 := by
        rcases mul_eq_zero.mp h0 with h | h
        · exact absurd h (coeff_pos _).ne'
        · exact pow_eq_zero_iff (by omega) |>.mp h
      have all : ∀ n, euler (y / (y + 1)) (n + 1) = 1 := by
        intro n
        rw [euler, Finset.sum_range_succ', hq]
        simp [coeff]
      rw [all, all]
    · exact step

/-- The terms times `x / (1 + x²)`. -/
noncomputable def eulerSum (x : ℝ) (n : ℕ) : ℝ := ∑ k ∈ Finset.range n, coeff k * x ^ (2 * k + 1) / (1 + x ^ 2) ^ (k + 1)

theorem eulerSum_eq (x : ℝ) (n : ℕ) : euler (x * x / (x * x + 1)) n * (x / (1 + x * x)) = eulerSum x n := by
  have h : (0 : ℝ) < 1 + x ^ 2 := by positivity
  rw [euler, eulerSum, Finset.sum_mul]
  apply Finset.sum_congr rfl
  intro k _
  rw [show x * x + 1 = 1 + x ^ 2 by ring, show 1 + x * x = 1 + x ^ 2 by ring, show x * x = x ^ 2 by ring, div_pow]
  generalize 1 + x ^ 2 = D at h
  rw [show x ^ (2 * k + 1) = (x ^ 2) ^ k * x by ring, pow_succ D]
  field_simp

/-- What the derivatives of the terms telescope to. -/
noncomputable def rest (x : ℝ) (k : ℕ) : ℝ := coeff k * (2 * k + 1) * x ^ (2 * k) / (1 + x ^ 2) ^ (k + 1)

theorem eulerSum_deriv (x : ℝ) (n : ℕ) : HasDerivAt (fun x => eulerSum x n) (1 / (1 + x ^ 2) - rest x n) x := by
  have h : (0 : ℝ) < 1 + x ^ 2 := by positivity
  induction n with
  | zero =>
    have e : (fun x => eulerSum x 0) = fun _ => 0 := by funext x; simp [eulerSum]
    have e2 : 1 / (1 + x ^ 2) - rest x 0 = 0 := by rw [rest, coeff]; simp
    rw [e, e2]
    exact hasDerivAt_const _ _
  | succ n ih =>
    have e : (fun x => eulerSum x (n + 1)) = fun x => eulerSum x n + coeff n * x ^ (2 * n + 1) / (1 + x ^ 2) ^ (n + 1) := by
      funext x; rw [eulerSum, Finset.sum_range_succ, ← eulerSum]
    rw [e]
    have d1 : HasDerivAt (fun x : ℝ => coeff n * x ^ (2 * n + 1)) (coeff n * ((2 * n + 1) * x ^ (2 * n))) x := by
      have := (hasDerivAt_pow (2 * n + 1) x).const_mul (coeff n)
      simpa using this
    have d0 : HasDerivAt (fun x : ℝ => 1 + x ^ 2) (2 * x) x := by
      have := (hasDerivAt_pow 2 x).const_add 1
      simpa using this
    have d2 : HasDerivAt (fun x : ℝ => (1 + x ^ 2) ^ (n + 1)) ((n + 1) * (1 + x ^ 2) ^ n * (2 * x)) x := by
      have := d0.fun_pow (n + 1)
      simpa using this
    have d3 := d1.fun_div d2 (by positivity)
    have d4 := ih.fun_add d3
    refine d4.congr_deriv ?_
    have hr : rest x (n + 1) = coeff n * (2 * n + 2) * x ^ (2 * n + 2) / (1 + x ^ 2) ^ (n + 2) := by
      rw [rest, ← coeff_succ n]; push_cast; ring
    rw [hr, rest]
    generalize hD : 1 + x ^ 2 = D at h
    have hx : x ^ 2 = D - 1 := by rw [← hD]; ring
    field_simp
    rw [show x ^ (2 * n + 1) = x ^ (2 * n) * x by ring, show x ^ (2 * n + 2) = x ^ (2 * n) * x ^ 2 by ring]
    ring

theorem rest_le (x b : ℝ) (h0 : 0 ≤ x) (h1 : x ≤ b) (n : ℕ) :
    |rest x (n + 1)| ≤ (2 * n + 2) * (b ^ 2 / (1 + b ^ 2)) ^ (n + 1) := by
  have hr : rest x (n + 1) = coeff n * (2 * n + 2) * (x ^ 2 / (1 + x ^ 2)) ^ (n + 1) * (1 / (1 + x ^ 2)) := by
    rw [rest, show ((n + 1 : ℕ) : ℝ) = n + 1 by push_cast; rfl, show 2 * ((n : ℝ) + 1) + 1 = 2 * n + 3 by ring, coeff_succ n, div_pow]
    field_simp
    ring
  have hc := coeff_pos n
  have q : x ^ 2 / (1 + x ^ 2) ≤ b ^ 2 / (1 + b ^ 2) := by
    rw [div_le_div_iff₀ (by positivity) (by positivity)]
    nlinarith
  have q2 : (x ^ 2 / (1 + x ^ 2)) ^ (n + 1) ≤ (b ^ 2 / (1 + b ^ 2)) ^ (n + 1) := pow_le_pow_left₀ (by positivity) q _
  have l : 1 / (1 + x ^ 2) ≤ 1 := by
    rw [div_le_one (by positivity)]; nlinarith [sq_nonneg x]
  rw [hr, abs_of_nonneg (by positivity)]
  calc coeff n * (2 * n + 2) * (x ^ 2 / (1 + x ^ 2)) ^ (n + 1) * (1 / (1 + x ^ 2))
      ≤ coeff n * (2 * n + 2) * (x ^ 2 / (1 + x ^ 2)) ^ (n + 1) * 1 := by gcongr
    _ ≤ 1 * (2 * n + 2) * (b ^ 2 / (1 + b ^ 2)) ^ (n + 1) := by
        rw [mul_one]
        gcongr
        exact coeff_le_one n
    _ = _ := by ring

theorem eulerSum_near (b : ℝ) (h0 : 0 ≤ b) (n : ℕ) :
    |eulerSum b (n + 1) - Real.arctan b| ≤ b * ((2 * n + 2) * (b ^ 2 / (1 + b ^ 2)) ^ (n + 1)) := by
  have := abs_le_of_deriv (fun x => eulerSum x (n + 1) - Real.arctan x)
    (fun x => x * ((2 * n + 2) * (b ^ 2 / (1 + b ^ 2)) ^ (n + 1))) (fun x => 1 / (1 + x ^ 2) - rest x (n + 1) - 1 / (1 + x ^ 2))
    (fun _ => 1 * ((2 * n + 2) * (b ^ 2 / (1 + b ^ 2)) ^ (n + 1))) b
    (fun y _ => (eulerSum_deriv y (n + 1)).fun_sub (Real.hasDerivAt_arctan y))
    (fun y _ => (hasDerivAt_id y).mul_const _)
    (fun y hy => by
      rw [show 1 / (1 + y ^ 2) - rest y (n + 1) - 1 / (1 + y ^ 2) = -rest y (n + 1) by ring, abs_neg, one_mul]
      exact rest_le y b hy.1 hy.2 n)
    (by simp [eulerSum]) (by simp) h0
  exact this

/-- The error of `atan`. -/
noncomputable def atanError (n : ℕ) : ℝ := (2 * n + 2) / 14 ^ (n + 1)

theorem atanError_pos (n : ℕ) : 0 < atanError n := by rw [atanError]; positivity

theorem sqrt3 : √3 ^ 2 = 3 ∧ 1.73 < √3 ∧ √3 < 1.7321 := by
  refine ⟨Real.sq_sqrt (by norm_num), ?_, ?_⟩
  · exact Real.lt_sqrt_of_sq_lt (by norm_num)
  · rw [Real.sqrt_lt' (by norm_num)]; norm_num

theorem atan_low (n d : ℕ) (x : ℝ) (h0 : 0 ≤ x) (h1 : x ≤ 2 - √3) :
    Near (atanNaive n (d + 1) x) (Real.arctan x) (atanError n) := by
  obtain ⟨-, s1, s2⟩ := sqrt3
  rw [atanNaive]
  by_cases hx : x = 0
  · rw [if_pos hx, hx, Real.arctan_zero]
    exact ⟨0, rfl, by simpa using (atanError_pos n).le⟩
  rw [if_neg hx, if_neg (by linarith), if_neg (by linarith), if_neg (by linarith), if_neg (by linarith)]
  refine ⟨_, rfl, ?_⟩
  have hl := atanLoop_eq (x * x) (by positivity) n 1 le_rfl (by omega)
  have e1 : euler (x * x / (x * x + 1)) 1 = 1 := by simp [euler, coeff]
  rw [e1] at hl
  simp only [Nat.sub_self, pow_zero, mul_one, coeff] at hl
  rw [hl, eulerSum_eq]
  refine (eulerSum_near x h0 n).trans ?_
  have q : x ^ 2 / (1 + x ^ 2) ≤ 1 / 14 := by
    rw [div_le_div_iff₀ (by positivity) (by norm_num)]
    nlinarith
  have q2 : (x ^ 2 / (1 + x ^ 2)) ^ (n + 1) ≤ (1 / 14) ^ (n + 1) := pow_le_pow_left₀ (by positivity) q _
  rw [atanError]
  calc x * ((2 * n + 2) * (x ^ 2 / (1 + x ^ 2)) ^ (n + 1)) ≤ 1 * ((2 * n + 2) * (1 / 14) ^ (n + 1)) := by
        gcongr; linarith
    _ = _ := by rw [one_mul, div_pow, one_pow]; ring

theorem Near.add {r : Option ℝ} {v ε c : ℝ} (h : Near r v ε) : Near (r.map fun r => c + r) (c + v) ε := by
  obtain ⟨a, rfl, h2⟩ := h
  exact ⟨c + a, rfl, by rw [show c + a - (c + v) = a - v by ring]; exact h2⟩

theorem Near.sub {r : Option ℝ} {v ε c : ℝ} (h : Near r v ε) : Near (r.map fun r => c - r) (c - v) ε := by
  obtain ⟨a, rfl, h2⟩ := h
  exact ⟨c - a, rfl, by rw [show c - a - (c - v) = -(a - v) by ring, abs_neg]; exact h2⟩

theorem arctan_sixth (x : ℝ) (h0 : 0 < x) : Real.arctan x = pi / 6 + Real.arctan ((√3 * x - 1) / (√3 + x)) := by
  obtain ⟨s0, s1, s2⟩ := sqrt3
  have h : (√3)⁻¹ * ((√3 * x - 1) / (√3 + x)) < 1 := by
    rw [← div_eq_inv_mul, div_div, div_lt_one (by positivity)]
    nlinarith
  rw [← Real.arctan_inv_sqrt_three, Real.arctan_add h]
  congr 1
  have hd : 1 - (√3)⁻¹ * ((√3 * x - 1) / (√3 + x)) ≠ 0 := by linarith
  rw [eq_div_iff hd]
  field_simp
  linear_combination (1 + x^2) * 0 * s0

theorem atan_mid (n d : ℕ) (x : ℝ) (h0 : 0 ≤ x) (h1 : x ≤ 1) :
    Near (atanNaive n (d + 3) x) (Real.arctan x) (atanError n) := by
  obtain ⟨s0, s1, s2⟩ := sqrt3
  by_cases hl : x ≤ 2 - √3
  · exact atan_low n (d + 2) x h0 hl
  push Not at hl
  have hp : 0 < x := by linarith
  rw [atanNaive, if_neg hp.ne']
  by_cases hx : x = 1
  · rw [if_pos hx, hx, Real.arctan_one]
    exact ⟨_, rfl, by simpa using (atanError_pos n).le⟩
  have hlt : x < 1 := lt_of_le_of_ne h1 hx
  rw [if_neg hx, if_neg (by linarith), if_neg (by linarith), if_pos hl, arctan_sixth x hp]
  apply Near.add
  have hd : 0 < √3 + x := by linarith
  have hu : (√3 * x - 1) / (√3 + x) ≤ 2 - √3 := by
    rw [div_le_iff₀ hd]; nlinarith
  have hb : -((√3 * x - 1) / (√3 + x)) ≤ 2 - √3 := by
    rw [← neg_div, div_le_iff₀ hd]; nlinarith
  generalize (√3 * x - 1) / (√3 + x) = y at hu hb
  by_cases hy : y < 0
  · rw [atanNaive, if_neg (by linarith), if_neg (by linarith), if_pos hy]
    have := (atan_low n d (-y) (by linarith) hb).neg
    rwa [Real.arctan_neg, neg_neg] at this
  · exact atan_low n (d + 1) y (not_lt.mp hy) hu

theorem atan_pos (n d : ℕ) (x : ℝ) (h0 : 0 ≤ x) : Near (atanNaive n (d + 4) x) (Real.arctan x) (atanError n) := by
  by_cases h : x ≤ 1
  · exact atan_mid n (d + 1) x h0 h
  push Not at h
  rw [atanNaive, if_neg (by linarith), if_neg (by linarith), if_neg (by linarith), if_pos h]
  have := (atan_mid n d (1 / x) (by positivity) (by rw [div_le_one (by linarith)]; linarith)).sub (c := pi / 2)
  rw [one_div, Real.arctan_inv_of_pos (by linarith), sub_sub_cancel] at this
  rwa [one_div]

theorem atan_all (n d : ℕ) (x : ℝ) : Near (atanNaive n (d + 5) x) (Real.arctan x) (atanError n) := by
  by_cases h : x < 0
  · rw [atanNaive, if_neg (by linarith), if_neg (by linarith), if_pos h]
    have := (atan_pos n d (-x) (by linarith)).neg
    rwa [Real.arctan_neg, neg_neg] at this
  · exact atan_pos n (d + 1) x (not_lt.mp h)

/-! ## The angle of a point -/

theorem arg_right (x y : ℝ) (hx : 0 < x) : Complex.arg ⟨x, y⟩ = Real.arctan (y / x) := by
  have hr : 0 < x * √(1 + (y / x) ^ 2) := by positivity
  have := Complex.arg_mul_cos_add_sin_mul_I hr (θ := Real.arctan (y / x))
    ⟨by linarith [Real.neg_pi_div_two_lt_arctan (y / x), Real.pi_pos], by linarith [Real.arctan_lt_pi_div_two (y / x), Real.pi_pos]⟩
  rw [← this]
  congr 1
  apply Complex.ext
  · simp only [← Complex.ofReal_cos, ← Complex.ofReal_sin, Real.cos_arctan, Real.sin_arctan]
    simp
    field_simp
  · simp only [← Complex.ofReal_cos, ← Complex.ofReal_sin, Real.cos_arctan, Real.sin_arctan]
    simp
    field_simp

theorem arg_left (x y : ℝ) (hx : x < 0) :
    Complex.arg ⟨x, y⟩ = if 0 ≤ y then Real.arctan (y / x) + pi else Real.arctan (y / x) - pi := by
  have hr : 0 < -x * √(1 + (y / x) ^ 2) := mul_pos (by linarith) (by positivity)
  have hxn : x ≠ 0 := hx.ne
  split_ifs with h
  · have ha : Real.arctan (y / x) ≤ 0 := Real.arctan_le_zero.mpr (div_nonpos_of_nonneg_of_nonpos h hx.le)
    have := Complex.arg_mul_cos_add_sin_mul_I hr (θ := Real.arctan (y / x) + pi)
      ⟨by linarith [Real.neg_pi_div_two_lt_arctan (y / x), Real.pi_pos], by linarith⟩
    rw [← this]
    congr 1
    apply Complex.ext
    · simp only [← Complex.ofReal_cos, ← Complex.ofReal_sin, Real.cos_add_pi, Real.sin_add_pi, Real.cos_arctan, Real.sin_arctan]
      simp
      field_simp
    · simp only [← Complex.ofReal_cos, ← Complex.ofReal_sin, Real.cos_add_pi, Real.sin_add_pi, Real.cos_arctan, Real.sin_arctan]
      simp
      field_simp
  · have ha : 0 < Real.arctan (y / x) := Real.arctan_pos.mpr (div_pos_of_neg_of_neg (by linarith) hx)
    have := Complex.arg_mul_cos_add_sin_mul_I hr (θ := Real.arctan (y / x) - pi)
      ⟨by linarith, by linarith [Real.arctan_lt_pi_div_two (y / x), Real.pi_pos]⟩
    rw [← this]
    congr 1
    apply Complex.ext
    · simp only [← Complex.ofReal_cos, ← Complex.ofReal_sin, Real.cos_sub_pi, Real.sin_sub_pi, Real.cos_arctan, Real.sin_arctan]
      simp
      field_simp
    · simp only [← Complex.ofReal_cos, ← Complex.ofReal_sin, Real.cos_sub_pi, Real.sin_sub_pi, Real.cos_arctan, Real.sin_arctan]
      simp
      field_simp

theorem atan2_all (n d : ℕ) (y x : ℝ) (h : x ≠ 0 ∨ y ≠ 0) :
    Near (atan2Naive n (d + 5) y x) (Complex.arg ⟨x, y⟩) (atanError n) := by
  have key := atan_all n d (y / x)
  rw [atan2Naive]
  rcases lt_trichotomy x 0 with hx | hx | hx
  · rw [if_neg (by linarith), arg_left x y hx]
    by_cases hy : 0 ≤ y
    · rw [if_pos ⟨hx, hy⟩, if_pos hy]
      obtain ⟨a, h1, h2⟩ := key
      exact ⟨a + pi, by rw [h1]; rfl, by rwa [add_sub_add_right_eq_sub]⟩
    · rw [if_neg (by tauto), if_pos ⟨hx, not_le.mp hy⟩, if_neg hy]
      obtain ⟨a, h1, h2⟩ := key
      exact ⟨a - pi, by rw [h1]; rfl, by rwa [sub_sub_sub_cancel_right]⟩
  · have he := (atanError_pos n).le
    rw [if_neg (by linarith), if_neg (by rintro ⟨h, -⟩; linarith), if_neg (by rintro ⟨h, -⟩; linarith)]
    rcases lt_trichotomy y 0 with hy | hy | hy
    · rw [if_neg (by rintro ⟨-, h⟩; linarith), if_pos ⟨hx, hy⟩, Complex.arg_eq_neg_pi_div_two_iff.mpr ⟨hx, hy⟩]
      exact ⟨_, rfl, by simpa using he⟩
    · tauto
    · rw [if_pos ⟨hx, hy⟩, Complex.arg_eq_pi_div_two_iff.mpr ⟨hx, hy⟩]
      exact ⟨_, rfl, by simpa using he⟩
  · rw [if_pos hx, arg_right x y hx]
    exact key

end Verif.Proofs.ConstMath
