import Verif.Proofs.ConstInverse

/-!
# Lemmas about `asin` and `acos` in constant expressions
-/

namespace Verif.Proofs.ConstMath

open Verif.Model.ConstMath

local notation "pi" => Real.pi

/-- `1/2 · 3/4 · …` -/
noncomputable def half : ℕ → ℝ
  | 0 => 1
  | j + 1 => half j * ((2 * j + 1) / (2 * j + 2))

theorem half_pos (j : ℕ) : 0 < half j := by
  induction j with
  | zero => exact one_pos
  | succ j ih => rw [half]; positivity

theorem half_le_one (j : ℕ) : half j ≤ 1 := by
  induction j with
  | zero => exact le_rfl
  | succ j ih =>
    rw [half]
    refine mul_le_one₀ ih (by positivity) ?_
    rw [div_le_one (by positivity)]; linarith

theorem half_succ (j : ℕ) : half (j + 1) * (2 * j + 2) = half j * (2 * j + 1) := by
  rw [half]; field_simp

/-- The first `n` terms of the series. -/
noncomputable def asinSum (x : ℝ) (n : ℕ) : ℝ := ∑ j ∈ Finset.range n, half j * x ^ (2 * j + 1) / (2 * j + 1)

theorem asinSum_succ (x : ℝ) (n : ℕ) : asinSum x (n + 1) = asinSum x n + half n * x ^ (2 * n + 1) / (2 * n + 1) := by
  rw [asinSum, Finset.sum_range_succ, ← asinSum]

theorem asinLoop_eq (x : ℝ) (n j : ℕ) (hj : j ≤ n) :
    asinLoop x n (2 * j + 1) (half (j + 1) * x ^ (2 * j + 3) / (2 * j + 1)) (asinSum x (j + 1)) = asinSum x (n + 1) := by
  obtain ⟨m, hm⟩ : ∃ m, m = n - j := ⟨_, rfl⟩
  induction m generalizing j with
  | zero => rw [asinLoop, if_neg (by omega), show j = n by omega]
  | succ m ih =>
    rw [asinLoop, if_pos (by omega)]
    have e1 : asinSum x (j + 1) + half (j + 1) * x ^ (2 * j + 3) / (2 * j + 1) * ((2 * j + 1 : ℕ) : ℝ) / ((2 * j + 1 + 2 : ℕ) : ℝ) =
        asinSum x (j + 2) := by
      rw [asinSum_succ x (j + 1)]
      push_cast
      have e : (2 : ℝ) * j + 1 + 2 = 2 * (j + 1) + 1 := by ring
      rw [e, show 2 * (j + 1) + 1 = 2 * j + 3 by ring]
      field_simp
    have e2 : half (j + 1) * x ^ (2 * j + 3) / (2 * j + 1) * (x * x * ((2 * j + 1 : ℕ) : ℝ) / ((2 * j + 1 + 3 : ℕ) : ℝ)) =
        half (j + 1 + 1) * x ^ (2 * (j + 1) + 3) / (2 * ((j + 1 : ℕ) : ℝ) + 1) := by
      rw [half.eq_2 (j + 1)]
      push_cast
      rw [show 2 * (j + 1) + 3 = 2 * j + 3 + 2 by ring, pow_add x (2 * j + 3) 2]
      have a1 : (0 : ℝ) < 2 * j + 1 := by positivity
      have a2 : (0 : ℝ) < 2 * (j + 1) + 1 := by positivity
      have a3 : (0 : ℝ) < 2 * j + 1 + 3 := by positivity
      have a4 : (2 : ℝ) * (j + 1) + 2 = 2 * j + 1 + 3 := by ring
      rw [a4]
      field_simp
    simp only [e1, e2]
    have step := ih (j + 1) (by omega) (by omega)
    split_ifs with h
    · have h0 : half (j + 1) * x ^ (2 * (j + 1) + 1) / (2 * ((j + 1 : ℕ) : ℝ) + 1) = 0 := by
        have := asinSum_succ x (j + 1)
        linarith
      have hx : x = 0 := by
        rw [div_eq_zero_iff] at h0
        rcases h0 with h0 | h0
        · rcases mul_eq_zero.mp h0 with h | h
          · exact absurd h (half_pos _).ne'
          · exact pow_eq_zero_iff (by omega) |>.mp h
        · have : (0 : ℝ) < 2 * ((j + 1 : ℕ) : ℝ) + 1 := by positivity
          linarith
      have all : ∀ n, asinSum x n = 0 := by
        intro n
        rw [asinSum, hx]
        apply Finset.sum_eq_zero
        intro k _
        simp
      rw [all, all]
    · rw [show 2 * j + 1 + 2 = 2 * (j + 1) + 1 by ring]
      exact step

theorem asinSeries_eq (x : ℝ) (n : ℕ) : asinLoop x n 1 (x * x * x / 2) x = asinSum x (n + 1) := by
  have := asinLoop_eq x n 0 (Nat.zero_le n)
  rw [← this]
  congr 1
  · rw [half, half]; norm_num; ring
  · rw [asinSum_succ]; simp [asinSum, half]

theorem asinSum_neg (x : ℝ) (n : ℕ) : asinSum (-x) n = -asinSum x n := by
  rw [asinSum, asinSum, ← Finset.sum_neg_distrib]
  apply Finset.sum_congr rfl
  intro j _
  rw [show (-x) ^ (2 * j + 1) = -(x ^ (2 * j + 1)) from Odd.neg_pow ⟨j, rfl⟩ x]
  ring

/-- The derivative of the partial sums. -/
noncomputable def invSqrt (x : ℝ) (n : ℕ) : ℝ := ∑ j ∈ Finset.range n, half j * x ^ (2 * j)

/-- Its derivative. -/
noncomputable def invSqrt' (x : ℝ) (n : ℕ) : ℝ := ∑ j ∈ Finset.range n, half (j + 1) * (2 * j + 2) * x ^ (2 * j + 1)

theorem asinSum_deriv (x : ℝ) (n : ℕ) : HasDerivAt (fun x => asinSum x n) (invSqrt x n) x := by
  induction n with
  | zero =>
    have e : (fun x => asinSum x 0) = fun _ => 0 := by funext x; simp [asinSum]
    rw [e, invSqrt]
    simpa using hasDerivAt_const x (0 : ℝ)
  | succ n ih =>
    have e : (fun x => asinSum x (n + 1)) = fun x => asinSum x n + half n / (2 * n + 1) * x ^ (2 * n + 1) := by
      funext x; rw [asinSum_succ]; ring
    rw [e]
    refine (ih.fun_add ((hasDerivAt_pow (2 * n + 1) x).const_mul _)).congr_deriv ?_
    rw [invSqrt, invSqrt, Finset.sum_range_succ]
    push_cast
    field_simp

theorem invSqrt_deriv (x : ℝ) (n : ℕ) : HasDerivAt (fun x => invSqrt x (n + 1)) (invSqrt' x n) x := by
  induction n with
  | zero =>
    have e : (fun x => invSqrt x (0 + 1)) = fun _ => 1 := by funext x; simp [invSqrt, half]
    rw [e, invSqrt']
    simpa using hasDerivAt_const x (1 : ℝ)
  | succ n ih =>
    have e : (fun x => invSqrt x (n + 1 + 1)) = fun x => invSqrt x (n + 1) + half (n + 1) * x ^ (2 * n + 2) := by
      funext x; rw [invSqrt, Finset.sum_range_succ, ← invSqrt]; ring
    rw [e]
    refine (ih.fun_add ((hasDerivAt_pow (2 * n + 2) x).const_mul _)).congr_deriv ?_
    rw [invSqrt', invSqrt', Finset.sum_range_succ]
    push_cast
    ring

theorem invSqrt_ode (x : ℝ) (n : ℕ) :
    (1 - x ^ 2) * invSqrt' x n = x * invSqrt x (n + 1) - half (n + 1) * (2 * n + 2) * x ^ (2 * n + 1) := by
  induction n with
  | zero => simp [invSqrt, invSqrt', half]
  | succ n ih =>
    have e1 : invSqrt' x (n + 1) = invSqrt' x n + half (n + 1) * (2 * n + 2) * x ^ (2 * n + 1) := by
      rw [invSqrt', Finset.sum_range_succ, ← invSqrt']
    have e2 : invSqrt x (n + 1 + 1) = invSqrt x (n + 1) + half (n + 1) * x ^ (2 * (n + 1)) := by
      rw [invSqrt, Finset.sum_range_succ, ← invSqrt]
    have e3 := half_succ (n + 1)
    push_cast at e3 ⊢
    rw [e1, e2, mul_add, ih, e3]
    ring

theorem sqrt_ge {x : ℝ} (h : x ^ 2 ≤ 1 / 2) : 1 / √2 ≤ √(1 - x ^ 2) ∧ 0 < √(1 - x ^ 2) := by
  have : 1 / √2 ≤ √(1 - x ^ 2) := by
    rw [← Real.sqrt_one, ← Real.sqrt_div (by norm_num)]
    apply Real.sqrt_le_sqrt
    linarith
  exact ⟨this, lt_of_lt_of_le (by positivity) this⟩

theorem invSqrt_near (b : ℝ) (h0 : 0 ≤ b) (h1 : b ^ 2 ≤ 1 / 2) (n : ℕ) :
    |invSqrt b (n + 1) - 1 / √(1 - b ^ 2)| ≤ 2 * b ^ (2 * n + 2) := by
  have h2 : √2 ^ 2 = 2 := Real.sq_sqrt (by norm_num)
  have h20 : 0 < √2 := by positivity
  have key := abs_le_of_deriv (fun x => √(1 - x ^ 2) * invSqrt x (n + 1) - 1) (fun x => √2 * x ^ (2 * n + 2))
    (fun x => -(2 * x) / (2 * √(1 - x ^ 2)) * invSqrt x (n + 1) + √(1 - x ^ 2) * invSqrt' x n)
    (fun x => √2 * ((2 * n + 2) * x ^ (2 * n + 1))) b
    (fun y hy => by
      have hy2 : y ^ 2 ≤ 1 / 2 := by nlinarith [hy.1, hy.2]
      have d0 : HasDerivAt (fun x : ℝ => 1 - x ^ 2) (-(2 * y)) y := by
        have := (hasDerivAt_pow 2 y).const_sub 1
        simpa using this
      have d1 := d0.sqrt (by linarith)
      have := (d1.fun_mul (invSqrt_deriv y n)).sub_const 1
      exact this)
    (fun y _ => by
      have := (hasDerivAt_pow (2 * n + 2) y).const_mul √2
      simpa using this)
    (fun y hy => by
      have hy2 : y ^ 2 ≤ 1 / 2 := by nlinarith [hy.1, hy.2]
      obtain ⟨hs, hs0⟩ := sqrt_ge hy2
      have hsq : √(1 - y ^ 2) ^ 2 = 1 - y ^ 2 := Real.sq_sqrt (by linarith)
      have ode := invSqrt_ode y n
      rw [← hsq] at ode
      generalize √(1 - y ^ 2) = s at *
      have e : -(2 * y) / (2 * s) * invSqrt y (n + 1) + s * invSqrt' y n = -(half (n + 1) * (2 * n + 2) * y ^ (2 * n + 1) / s) := by
        field_simp
        linear_combination ode
      rw [e, abs_neg, abs_of_nonneg (by have := half_pos (n + 1); have := hy.1; positivity), div_le_iff₀ hs0]
      have hl : 1 ≤ √2 * s := by
        rw [div_le_iff₀ h20] at hs; linarith
      have hp : 0 ≤ (2 * (n : ℝ) + 2) * y ^ (2 * n + 1) := by have := hy.1; positivity
      calc half (n + 1) * (2 * n + 2) * y ^ (2 * n + 1) = half (n + 1) * ((2 * n + 2) * y ^ (2 * n + 1)) := by ring
        _ ≤ 1 * ((2 * n + 2) * y ^ (2 * n + 1)) := mul_le_mul_of_nonneg_right (half_le_one _) hp
        _ ≤ (√2 * s) * ((2 * n + 2) * y ^ (2 * n + 1)) := mul_le_mul_of_nonneg_right hl hp
        _ = _ := by ring)
    (by simp [invSqrt, Finset.sum_range_succ', half]) (by simp) h0
  obtain ⟨hs, hs0⟩ := sqrt_ge h1
  have e : invSqrt b (n + 1) - 1 / √(1 - b ^ 2) = (√(1 - b ^ 2) * invSqrt b (n + 1) - 1) / √(1 - b ^ 2) := by
    field_simp
  rw [e, abs_div, abs_of_pos hs0, div_le_iff₀ hs0]
  refine key.trans ?_
  rw [div_le_iff₀ h20] at hs
  have hp : 0 ≤ b ^ (2 * n + 2) := by positivity
  have : √2 ≤ 2 * √(1 - b ^ 2) := by nlinarith
  calc √2 * b ^ (2 * n + 2) ≤ 2 * √(1 - b ^ 2) * b ^ (2 * n + 2) := mul_le_mul_of_nonneg_right this hp
    _ = _ := by ring

theorem sq_lt_one_ne {y : ℝ} (h : y ^ 2 ≤ 1 / 2) : y ≠ -1 ∧ y ≠ 1 := by
  constructor <;> rintro rfl <;> norm_num at h

theorem asinSum_near (b : ℝ) (h0 : 0 ≤ b) (h1 : b ^ 2 ≤ 1 / 2) (n : ℕ) :
    |asinSum b (n + 1) - Real.arcsin b| ≤ 2 * b ^ (2 * n + 3) := by
  have key := abs_le_of_deriv (fun x => asinSum x (n + 1) - Real.arcsin x) (fun x => 2 * x ^ (2 * n + 3))
    (fun x => invSqrt x (n + 1) - 1 / √(1 - x ^ 2)) (fun x => 2 * ((2 * n + 3) * x ^ (2 * n + 2))) b
    (fun y hy => by
      have hy2 : y ^ 2 ≤ 1 / 2 := by nlinarith [hy.1, hy.2]
      exact (asinSum_deriv y (n + 1)).fun_sub (Real.hasDerivAt_arcsin (sq_lt_one_ne hy2).1 (sq_lt_one_ne hy2).2))
    (fun y _ => by
      have := (hasDerivAt_pow (2 * n + 3) y).const_mul 2
      simpa using this)
    (fun y hy => by
      have hy2 : y ^ 2 ≤ 1 / 2 := by nlinarith [hy.1, hy.2]
      refine (invSqrt_near y hy.1 hy2 n).trans ?_
      have hp : 0 ≤ y ^ (2 * n + 2) := by have := hy.1; positivity
      have hn : (0 : ℝ) ≤ n := Nat.cast_nonneg n
      nlinarith [mul_nonneg hn hp])
    (by simp [asinSum]) (by simp) h0
  exact key

theorem asinSum_small (b : ℝ) (h1 : b ^ 2 ≤ 1 / 2) (n : ℕ) : |asinSum b (n + 1) - Real.arcsin b| ≤ 1 / 2 ^ n := by
  have pos : ∀ b : ℝ, 0 ≤ b → b ^ 2 ≤ 1 / 2 → |asinSum b (n + 1) - Real.arcsin b| ≤ 1 / 2 ^ n := by
    intro b h0 h1
    refine (asinSum_near b h0 h1 n).trans ?_
    have hb1 : b ≤ 1 := by nlinarith
    have e : b ^ (2 * n + 3) = (b ^ 2) ^ (n + 1) * b := by ring
    have e2 : (b ^ 2) ^ (n + 1) ≤ (1 / 2) ^ (n + 1) := pow_le_pow_left₀ (by positivity) h1 _
    have e3 : (1 / 2 : ℝ) ^ (n + 1) = 1 / 2 ^ n / 2 := by rw [div_pow, one_pow, pow_succ]; field_simp
    rw [e]
    have h3 : (0 : ℝ) ≤ (b ^ 2) ^ (n + 1) := by positivity
    rw [e3] at e2
    nlinarith
  by_cases h : 0 ≤ b
  · exact pos b h h1
  · have := pos (-b) (by linarith) (by rw [neg_sq]; exact h1)
    rw [asinSum_neg, Real.arcsin_neg, show -asinSum b (n + 1) - -Real.arcsin b = -(asinSum b (n + 1) - Real.arcsin b) by ring, abs_neg] at this
    exact this

theorem inv_sqrt2 : (1 / √2) ^ 2 = 1 / 2 ∧ 0 < 1 / √2 ∧ 1 / √2 < 1 := by
  have h2 : √2 ^ 2 = 2 := Real.sq_sqrt (by norm_num)
  have h0 : (0 : ℝ) < 1 / √2 := by positivity
  have h1 : (1 / √2) ^ 2 = 1 / 2 := by rw [div_pow, h2, one_pow]
  refine ⟨h1, h0, ?_⟩
  nlinarith

theorem asin_low (n d : ℕ) (x : ℝ) (h : x ^ 2 ≤ 1 / 2) : Near (asinNaive n (d + 1) x) (Real.arcsin x) (1 / 2 ^ n) := by
  obtain ⟨r1, r2, r3⟩ := inv_sqrt2
  rw [asinNaive]
  by_cases hx : x = 0
  · rw [if_pos hx, hx, Real.arcsin_zero]
    exact ⟨0, rfl, by simp⟩
  have hu : x ≤ 1 / √2 := abs_le_of_sq_le_sq' (by rw [r1]; exact h) r2.le |>.2
  have hl : -(1 / √2) ≤ x := abs_le_of_sq_le_sq' (by rw [r1]; exact h) r2.le |>.1
  rw [if_neg hx, if_neg (by rintro (h | h) <;> linarith), if_neg (by linarith), if_neg (by linarith), if_neg (by linarith),
    if_neg (by linarith), asinSeries_eq]
  exact ⟨_, rfl, asinSum_small x h n⟩

theorem arcsin_lipschitz (a b : ℝ) (h0 : 0 ≤ a) (hab : a ≤ b) (hb : b ^ 2 ≤ 1 / 2) :
    |Real.arcsin b - Real.arcsin a| ≤ √2 * (b - a) := by
  have key := abs_le_of_deriv (fun t => Real.arcsin (a + t) - Real.arcsin a) (fun t => √2 * t)
    (fun t => 1 / √(1 - (a + t) ^ 2)) (fun _ => √2 * 1) (b - a)
    (fun t ht => by
      have hy2 : (a + t) ^ 2 ≤ 1 / 2 := by nlinarith [ht.1, ht.2]
      have := (Real.hasDerivAt_arcsin (sq_lt_one_ne hy2).1 (sq_lt_one_ne hy2).2).comp_const_add a t
      exact this.sub_const _)
    (fun t _ => (hasDerivAt_id t).const_mul √2)
    (fun t ht => by
      have hy2 : (a + t) ^ 2 ≤ 1 / 2 := by nlinarith [ht.1, ht.2]
      obtain ⟨hs, hs0⟩ := sqrt_ge hy2
      rw [abs_of_pos (by positivity), mul_one, div_le_iff₀ hs0]
      rw [div_le_iff₀ (by positivity)] at hs
      linarith)
    (by simp) (by simp) (by linarith)
  simpa using key

/-- What is left over when the argument is large: the complement, by way of the square root. -/
theorem asin_complement (n d : ℕ) (x : ℝ) (h0 : 0 ≤ x) (h1 : x < 1) (h : 1 / 2 + 2 / 2 ^ (n + 1) ≤ x ^ 2) :
    Near ((sqrtNaive (n + 1) (1 - x * x)).bind fun s => asinNaive (n + 1) (d + 1) s) (Real.arccos x) (3 / 2 ^ (n + 1)) := by
  obtain ⟨r1, r2, r3⟩ := inv_sqrt2
  have hx1 : x * x < 1 := by nlinarith
  have hu : (0 : ℝ) < 1 / 2 ^ (n + 1) := by positivity
  have hu2 : (1 : ℝ) / 2 ^ (n + 1) ≤ 1 / 2 := by
    apply one_div_le_one_div_of_le (by norm_num)
    calc (2 : ℝ) = 2 ^ 1 := by norm_num
      _ ≤ 2 ^ (n + 1) := pow_le_pow_right₀ (by norm_num) (by omega)
  have e2 : (2 : ℝ) / 2 ^ (n + 1) = 2 * (1 / 2 ^ (n + 1)) := by ring
  have e3 : (3 : ℝ) / 2 ^ (n + 1) = 3 * (1 / 2 ^ (n + 1)) := by ring
  obtain ⟨s, hs, hs1, hs2⟩ := sqrtNaive_abs n (1 - x * x) (by linarith) (by nlinarith)
  rw [hs, Option.bind_some]
  rw [e2] at h
  rw [e3]
  have hle : √(1 - x * x) ≤ 1 / √2 - 1 / 2 ^ (n + 1) := by
    rw [Real.sqrt_le_left (by nlinarith)]
    generalize (1 : ℝ) / 2 ^ (n + 1) = u at *
    have : 1 / √2 ≤ 1 := r3.le
    nlinarith
  have hs0 : 0 ≤ √(1 - x * x) := Real.sqrt_nonneg _
  have hsq : s ^ 2 ≤ 1 / 2 := by
    rw [← r1]; exact pow_le_pow_left₀ (by linarith) (by linarith) 2
  obtain ⟨a, ha, ha2⟩ := asin_low (n + 1) d s hsq
  have lip := arcsin_lipschitz (√(1 - x * x)) s hs0 hs1 hsq
  rw [Real.arccos_eq_arcsin h0, show 1 - x ^ 2 = 1 - x * x by ring]
  refine ⟨a, ha, ?_⟩
  have h2 : √2 ≤ 2 := by rw [Real.sqrt_le_left (by norm_num)]; norm_num
  have lip2 : |Real.arcsin s - Real.arcsin √(1 - x * x)| ≤ 2 * (1 / 2 ^ (n + 1)) := by
    refine lip.trans (mul_le_mul h2 (by linarith) (by linarith) (by norm_num))
  have := abs_sub_le a (Real.arcsin s) (Real.arcsin √(1 - x * x))
  linarith

theorem asin_all (n d : ℕ) (x : ℝ) (h1 : -1 ≤ x) (h2 : x ≤ 1) (h : x ^ 2 ≤ 1 / 2 ∨ 1 / 2 + 2 / 2 ^ (n + 1) ≤ x ^ 2) :
    Near (asinNaive (n + 1) (d + 2) x) (Real.arcsin x) (3 / 2 ^ (n + 1)) := by
  obtain ⟨r1, r2, r3⟩ := inv_sqrt2
  have hu : (0 : ℝ) < 1 / 2 ^ (n + 1) := by positivity
  have e2 : (2 : ℝ) / 2 ^ (n + 1) = 2 * (1 / 2 ^ (n + 1)) := by ring
  have e3 : (3 : ℝ) / 2 ^ (n + 1) = 3 * (1 / 2 ^ (n + 1)) := by ring
  rcases h with h | h
  · exact (asin_low (n + 1) (d + 1) x h).mono (by rw [e3]; linarith)
  rw [asinNaive, if_neg (by rintro rfl; rw [e2, show (0 : ℝ) ^ 2 = 0 by norm_num] at h; linarith), if_neg (by rintro (h | h) <;> linarith)]
  by_cases c1 : x = -1
  · rw [if_pos c1, c1, Real.arcsin_neg_one]
    exact ⟨_, rfl, by rw [sub_self, abs_zero]; positivity⟩
  by_cases c2 : x = 1
  · rw [if_neg c1, if_pos c2, c2, Real.arcsin_one]
    exact ⟨_, rfl, by rw [sub_self, abs_zero]; positivity⟩
  have l1 : x < 1 := lt_of_le_of_ne h2 c2
  have l2 : -1 < x := lt_of_le_of_ne h1 (Ne.symm c1)
  rw [if_neg c1, if_neg c2]
  have hsq : (1 / √2) ^ 2 < x ^ 2 := by rw [r1]; rw [e2] at h; linarith
  by_cases hx : 0 ≤ x
  · have : 1 / √2 < x := lt_of_pow_lt_pow_left₀ 2 hx hsq
    rw [if_pos this]
    have k := (asin_complement n d x hx l1 h).sub (c := pi / 2)
    rw [Real.arccos, sub_sub_cancel] at k
    convert k using 1
    rw [Option.map_bind]
    rfl
  · have : 1 / √2 < -x := lt_of_pow_lt_pow_left₀ 2 (by linarith) (by rwa [neg_sq])
    rw [if_neg (by linarith), if_pos (by linarith)]
    have k := (asin_complement n d (-x) (by linarith) (by linarith) (by rwa [neg_sq])).add (c := -(pi / 2))
    rw [Real.arccos, Real.arcsin_neg, show -(pi / 2) + (pi / 2 - -Real.arcsin x) = Real.arcsin x by ring, show 1 - -x * -x = 1 - x * x by ring] at k
    convert k using 1
    rw [Option.map_bind]
    rfl

theorem acos_all (n d : ℕ) (x : ℝ) (h1 : -1 ≤ x) (h2 : x ≤ 1) (h : x ^ 2 ≤ 1 / 2 ∨ 1 / 2 + 2 / 2 ^ (n + 1) ≤ x ^ 2) :
    Near (acosNaive (n + 1) (d + 2) x) (Real.arccos x) (3 / 2 ^ (n + 1)) := by
  have hu : (0 : ℝ) < 3 / 2 ^ (n + 1) := by positivity
  rw [acosNaive, if_neg (by rintro (h | h) <;> linarith)]
  by_cases c1 : x = -1
  · rw [if_pos c1, c1, Real.arccos_neg_one]
    exact ⟨_, rfl, by simpa using hu.le⟩
  by_cases c2 : x = 1
  · rw [if_neg c1, if_pos c2, c2, Real.arccos_one]
    exact ⟨_, rfl, by simpa using hu.le⟩
  rw [if_neg c1, if_neg c2, Real.arccos]
  exact (asin_all n d x h1 h2 h).sub

end Verif.Proofs.ConstMath
