import Verif.Proofs.ConstSqrt
import Mathlib.Analysis.Calculus.Deriv.MeanValue
import Mathlib.Analysis.Calculus.Deriv.Pow
import Mathlib.Analysis.SpecialFunctions.Trigonometric.Deriv
import Mathlib.Analysis.SpecialFunctions.Trigonometric.Bounds

/-!
# Lemmas about `cos`, `sin` and `tan` in constant expressions
-/

namespace Verif.Proofs.ConstMath

open Verif.Model.ConstMath
open Real (pi)
open Finset (sum_range_succ range)

/-- A function that vanishes at zero and whose derivative is bounded by that of another is bounded by it. -/
theorem abs_le_of_deriv (f g f' g' : ℝ → ℝ) (b : ℝ) (hf : ∀ y ∈ Set.Icc 0 b, HasDerivAt f (f' y) y)
    (hg : ∀ y ∈ Set.Icc 0 b, HasDerivAt g (g' y) y) (h : ∀ y ∈ Set.Icc 0 b, |f' y| ≤ g' y) (hf0 : f 0 = 0) (hg0 : g 0 = 0)
    (hb : 0 ≤ b) : |f b| ≤ g b := by
  have mono : ∀ s : ℝ, |s| = 1 → MonotoneOn (fun y => g y + s * f y) (Set.Icc 0 b) := by
    intro s hs
    apply monotoneOn_of_deriv_nonneg (convex_Icc 0 b)
    · intro y hy
      exact ((hg y hy).add ((hf y hy).const_mul s)).continuousAt.continuousWithinAt
    · intro y hy
      rw [interior_Icc] at hy
      have hy' := Set.Ioo_subset_Icc_self hy
      exact ((hg y hy').add ((hf y hy').const_mul s)).differentiableAt.differentiableWithinAt
    · intro y hy
      rw [interior_Icc] at hy
      have hy' := Set.Ioo_subset_Icc_self hy
      have hd : HasDerivAt (fun y => g y + s * f y) (g' y + s * f' y) y := (hg y hy').add ((hf y hy').const_mul s)
      rw [hd.deriv]
      have h1 := h y hy'
      have h2 : |s * f' y| = |f' y| := by rw [abs_mul, hs, one_mul]
      have h3 := neg_abs_le (s * f' y)
      linarith
  have h0 : (0 : ℝ) ∈ Set.Icc 0 b := ⟨le_rfl, hb⟩
  have h1 : b ∈ Set.Icc 0 b := ⟨hb, le_rfl⟩
  have a1 := mono 1 (by simp) h0 h1 hb
  have a2 := mono (-1) (by simp) h0 h1 hb
  simp only [hf0, hg0] at a1 a2
  rw [abs_le]
  constructor <;> linarith

/-! ## The Taylor series -/

noncomputable def cosTerm (x : ℝ) (j : ℕ) : ℝ := (-1) ^ j * x ^ (2 * j) / (2 * j).factorial
noncomputable def sinTerm (x : ℝ) (j : ℕ) : ℝ := (-1) ^ j * x ^ (2 * j + 1) / (2 * j + 1).factorial
noncomputable def cosSum (x : ℝ) (n : ℕ) : ℝ := ∑ j ∈ range n, cosTerm x j
noncomputable def sinSum (x : ℝ) (n : ℕ) : ℝ := ∑ j ∈ range n, sinTerm x j

theorem sinTerm_deriv (x : ℝ) (j : ℕ) : HasDerivAt (fun y => sinTerm y j) (cosTerm x j) x := by
  have h := ((hasDerivAt_pow (2 * j + 1) x).const_mul ((-1 : ℝ) ^ j)).div_const ((2 * j + 1).factorial : ℝ)
  refine h.congr_deriv ?_
  rw [cosTerm, Nat.factorial_succ]
  have : ((2 * j).factorial : ℝ) ≠ 0 := by exact_mod_cast Nat.factorial_ne_zero _
  have h2 : ((2 * j + 1 : ℕ) : ℝ) ≠ 0 := by positivity
  rw [Nat.add_sub_cancel, Nat.cast_mul]
  field_simp

theorem cosTerm_deriv (x : ℝ) (j : ℕ) : HasDerivAt (fun y => cosTerm y (j + 1)) (-sinTerm x j) x := by
  have h := ((hasDerivAt_pow (2 * (j + 1)) x).const_mul ((-1 : ℝ) ^ (j + 1))).div_const ((2 * (j + 1)).factorial : ℝ)
  refine h.congr_deriv ?_
  rw [sinTerm, show 2 * (j + 1) = (2 * j + 1) + 1 by ring, Nat.factorial_succ]
  have : ((2 * j + 1).factorial : ℝ) ≠ 0 := by exact_mod_cast Nat.factorial_ne_zero _
  have h2 : ((2 * j + 1 + 1 : ℕ) : ℝ) ≠ 0 := by positivity
  rw [Nat.add_sub_cancel, Nat.cast_mul, pow_succ (-1 : ℝ)]
  field_simp

theorem sinSum_deriv (x : ℝ) (n : ℕ) : HasDerivAt (fun y => sinSum y n) (cosSum x n) x := by
  unfold sinSum cosSum
  exact HasDerivAt.fun_sum fun j _ => sinTerm_deriv x j

theorem cosSum_succ' (x : ℝ) (n : ℕ) : cosSum x (n + 1) = 1 + ∑ j ∈ range n, cosTerm x (j + 1) := by
  rw [cosSum, Finset.sum_range_succ', add_comm]
  simp [cosTerm]

theorem cosSum_deriv (x : ℝ) (n : ℕ) : HasDerivAt (fun y => cosSum y (n + 1)) (-sinSum x n) x := by
  have h : HasDerivAt (fun y => 1 + ∑ j ∈ range n, cosTerm y (j + 1)) (∑ j ∈ range n, -sinTerm x j) x :=
    (HasDerivAt.fun_sum fun j _ => cosTerm_deriv x j).const_add 1
  rw [Finset.sum_neg_distrib] at h
  have e : (fun y => cosSum y (n + 1)) = fun y => 1 + ∑ j ∈ range n, cosTerm y (j + 1) := by
    funext y; exact cosSum_succ' y n
  rw [e]
  exact h

theorem pow_deriv (x : ℝ) (m : ℕ) :
    HasDerivAt (fun y : ℝ => y ^ (m + 1) / ((m + 1).factorial : ℝ)) (x ^ m / (m.factorial : ℝ)) x := by
  have h := (hasDerivAt_pow (m + 1) x).div_const ((m + 1).factorial : ℝ)
  refine h.congr_deriv ?_
  rw [Nat.factorial_succ]
  have : (m.factorial : ℝ) ≠ 0 := by exact_mod_cast Nat.factorial_ne_zero _
  have h2 : ((m + 1 : ℕ) : ℝ) ≠ 0 := by positivity
  rw [Nat.add_sub_cancel, Nat.cast_mul]
  field_simp

theorem taylor (n : ℕ) : (∀ x : ℝ, 0 ≤ x → |Real.sin x - sinSum x n| ≤ x ^ (2 * n + 1) / (2 * n + 1).factorial) ∧
    (∀ x : ℝ, 0 ≤ x → |Real.cos x - cosSum x (n + 1)| ≤ x ^ (2 * n + 2) / (2 * n + 2).factorial) := by
  have step : ∀ n, (∀ x : ℝ, 0 ≤ x → |Real.sin x - sinSum x n| ≤ x ^ (2 * n + 1) / (2 * n + 1).factorial) →
      (∀ x : ℝ, 0 ≤ x → |Real.cos x - cosSum x (n + 1)| ≤ x ^ (2 * n + 2) / (2 * n + 2).factorial) := by
    intro n h x hx
    refine abs_le_of_deriv (fun y => Real.cos y - cosSum y (n + 1)) (fun y => y ^ (2 * n + 1 + 1) / ((2 * n + 1 + 1).factorial : ℝ))
      (fun y => -Real.sin y - -sinSum y n) (fun y => y ^ (2 * n + 1) / ((2 * n + 1).factorial : ℝ)) x
      (fun y _ => (Real.hasDerivAt_cos y).sub (cosSum_deriv y n)) (fun y _ => pow_deriv y (2 * n + 1)) ?_ ?_ ?_ hx
    · intro y hy
      have e : -Real.sin y - -sinSum y n = -(Real.sin y - sinSum y n) := by ring
      rw [e, abs_neg]
      exact h y hy.1
    · simp only [Real.cos_zero, cosSum_succ']
      have : ∑ j ∈ range n, cosTerm 0 (j + 1) = 0 := Finset.sum_eq_zero fun j _ => by simp [cosTerm]
      rw [this]; ring
    · simp
  induction n with
  | zero =>
    have h0 : ∀ x : ℝ, 0 ≤ x → |Real.sin x - sinSum x 0| ≤ x ^ (2 * 0 + 1) / (2 * 0 + 1).factorial := by
      intro x hx
      simp only [sinSum, Finset.range_zero, Finset.sum_empty, sub_zero, mul_zero, zero_add, pow_one,
        Nat.factorial_one, Nat.cast_one, div_one]
      calc |Real.sin x| ≤ |x| := Real.abs_sin_le_abs
        _ = x := abs_of_nonneg hx
    exact ⟨h0, step 0 h0⟩
  | succ n ih =>
    have h1 : ∀ x : ℝ, 0 ≤ x → |Real.sin x - sinSum x (n + 1)| ≤ x ^ (2 * (n + 1) + 1) / (2 * (n + 1) + 1).factorial := by
      intro x hx
      refine abs_le_of_deriv (fun y => Real.sin y - sinSum y (n + 1))
        (fun y => y ^ (2 * (n + 1) + 1) / ((2 * (n + 1) + 1).factorial : ℝ))
        (fun y => Real.cos y - cosSum y (n + 1)) (fun y => y ^ (2 * (n + 1)) / ((2 * (n + 1)).factorial : ℝ)) x
        (fun y _ => (Real.hasDerivAt_sin y).sub (sinSum_deriv y (n + 1))) (fun y _ => pow_deriv y (2 * (n + 1))) ?_ ?_ ?_ hx
      · intro y hy
        exact ih.2 y hy.1
      · simp only [Real.sin_zero, sinSum]
        have : ∑ j ∈ range (n + 1), sinTerm 0 j = 0 := Finset.sum_eq_zero fun j _ => by simp [sinTerm]
        rw [this]; ring
      · simp
    exact ⟨h1, step (n + 1) h1⟩

/-! ## The loops compute the partial sums -/

theorem cosTerm_succ (x : ℝ) (j : ℕ) (hj : 1 ≤ j) :
    cosTerm x j = cosTerm x (j - 1) * (-x * x / (2 * (j : ℝ) * (2 * j - 1))) := by
  obtain ⟨k, rfl⟩ : ∃ k, j = k + 1 := ⟨j - 1, by omega⟩
  rw [Nat.add_sub_cancel, cosTerm, cosTerm, show 2 * (k + 1) = 2 * k + 1 + 1 by ring, Nat.factorial_succ, Nat.factorial_succ]
  have : ((2 * k).factorial : ℝ) ≠ 0 := by exact_mod_cast Nat.factorial_ne_zero _
  push_cast
  have h1 : (2 * (k : ℝ) + 1) ≠ 0 := by positivity
  have h2 : (2 * (k : ℝ) + 1 + 1) ≠ 0 := by positivity
  have h3 : (2 * ((k : ℝ) + 1) - 1) ≠ 0 := by
    have : (2 * ((k : ℝ) + 1) - 1) = 2 * k + 1 := by ring
    rw [this]; exact h1
  have h4 : ((k : ℝ) + 1) ≠ 0 := by positivity
  rw [show (2 * ((k : ℝ) + 1) - 1) = 2 * k + 1 by ring]
  field_simp
  ring

theorem sinTerm_succ (x : ℝ) (j : ℕ) (hj : 1 ≤ j) :
    sinTerm x j = -sinTerm x (j - 1) * x * x / (((2 * j + 1 : ℕ) : ℝ) * (((2 * j + 1 : ℕ) : ℝ) - 1)) := by
  obtain ⟨k, rfl⟩ : ∃ k, j = k + 1 := ⟨j - 1, by omega⟩
  rw [Nat.add_sub_cancel, sinTerm, sinTerm, show 2 * (k + 1) + 1 = 2 * k + 1 + 1 + 1 by ring, Nat.factorial_succ,
    Nat.factorial_succ]
  have : ((2 * k + 1).factorial : ℝ) ≠ 0 := by exact_mod_cast Nat.factorial_ne_zero _
  push_cast
  have h1 : (2 * (k : ℝ) + 1 + 1) ≠ 0 := by positivity
  have h2 : (2 * (k : ℝ) + 1 + 1 + 1) ≠ 0 := by positivity
  rw [show (2 * (k : ℝ) + 1 + 1 + 1 - 1) = 2 * k + 1 + 1 by ring]
  field_simp
  ring

theorem cosTerm_eq_zero (x : ℝ) (j : ℕ) (h : cosTerm x j = 0) : x = 0 := by
  by_contra hx
  have : cosTerm x j ≠ 0 := by
    rw [cosTerm]
    have h1 : ((2 * j).factorial : ℝ) ≠ 0 := by exact_mod_cast Nat.factorial_ne_zero _
    have h2 : ((-1 : ℝ)) ^ j ≠ 0 := pow_ne_zero _ (by norm_num)
    positivity
  exact this h

theorem sinTerm_eq_zero (x : ℝ) (j : ℕ) (h : sinTerm x j = 0) : x = 0 := by
  by_contra hx
  have : sinTerm x j ≠ 0 := by
    rw [sinTerm]
    have h1 : ((2 * j + 1).factorial : ℝ) ≠ 0 := by exact_mod_cast Nat.factorial_ne_zero _
    have h2 : ((-1 : ℝ)) ^ j ≠ 0 := pow_ne_zero _ (by norm_num)
    positivity
  exact this h

theorem cosSum_zero (n : ℕ) (hn : 1 ≤ n) : cosSum 0 n = 1 := by
  obtain ⟨k, rfl⟩ : ∃ k, n = k + 1 := ⟨n - 1, by omega⟩
  rw [cosSum_succ']
  have : ∑ j ∈ range k, cosTerm 0 (j + 1) = 0 := Finset.sum_eq_zero fun j _ => by simp [cosTerm]
  rw [this, add_zero]

theorem sinSum_zero (n : ℕ) : sinSum 0 n = 0 := Finset.sum_eq_zero fun j _ => by simp [sinTerm]

theorem cosLoop_eq (x : ℝ) (n i : ℕ) (hi : 1 ≤ i) (hn : i ≤ n) :
    cosLoop x n i (cosTerm x (i - 1)) (cosSum x i) = cosSum x n := by
  obtain ⟨k, rfl⟩ : ∃ k, n = i + k := ⟨n - i, by omega⟩
  induction k generalizing i with
  | zero =>
    rw [cosLoop, if_neg (by omega)]
    rfl
  | succ k ih =>
    rw [cosLoop, if_pos (by omega)]
    simp only
    rw [← cosTerm_succ x i hi]
    have e : cosSum x i + cosTerm x i = cosSum x (i + 1) := (sum_range_succ _ _).symm
    split_ifs with h
    · have hx : x = 0 := cosTerm_eq_zero x i (by linarith)
      subst hx
      rw [e, cosSum_zero _ (by omega), cosSum_zero _ (by omega)]
    · rw [e]
      have := ih (i + 1) (by omega) (by omega)
      rw [Nat.add_sub_cancel] at this
      rw [show i + (k + 1) = i + 1 + k by ring]
      exact this

theorem sinLoop_eq (x : ℝ) (n j : ℕ) (hj : 1 ≤ j) (hn : j ≤ n) :
    sinLoop x n (2 * j + 1) (sinTerm x (j - 1)) (sinSum x j) = sinSum x n := by
  obtain ⟨k, rfl⟩ : ∃ k, n = j + k := ⟨n - j, by omega⟩
  induction k generalizing j with
  | zero =>
    rw [sinLoop, if_neg (by omega)]
    rfl
  | succ k ih =>
    rw [sinLoop, if_pos (by omega)]
    simp only
    rw [← sinTerm_succ x j hj]
    have e : sinSum x j + sinTerm x j = sinSum x (j + 1) := (sum_range_succ _ _).symm
    split_ifs with h
    · have hx : x = 0 := sinTerm_eq_zero x j (by linarith)
      subst hx
      rw [e, sinSum_zero, sinSum_zero]
    · rw [e]
      have := ih (j + 1) (by omega) (by omega)
      rw [Nat.add_sub_cancel] at this
      rw [show j + (k + 1) = j + 1 + k by ring]
      exact this

theorem cosSeries_eq (x : ℝ) (n : ℕ) (hn : 2 ≤ n) : cosLoop x n 2 (-x * x / 2) (1 + -x * x / 2) = cosSum x n := by
  have h := cosLoop_eq x n 2 (by omega) hn
  have e1 : cosTerm x (2 - 1) = -x * x / 2 := by
    norm_num [cosTerm, Nat.factorial]; ring
  have e2 : cosSum x 2 = 1 + -x * x / 2 := by
    rw [cosSum_succ', Finset.sum_range_one, show (0 + 1 : ℕ) = 2 - 1 by rfl, e1]
  rwa [e1, e2] at h

theorem sinSeries_eq (x : ℝ) (n : ℕ) (hn : 1 ≤ n) : sinLoop x n 3 x x = sinSum x n := by
  have h := sinLoop_eq x n 1 le_rfl hn
  have e1 : sinTerm x (1 - 1) = x := by norm_num [sinTerm, Nat.factorial]
  have e2 : sinSum x 1 = x := by
    rw [sinSum, Finset.sum_range_one]; exact e1
  rwa [e1, e2] at h

/-! ## Reduction to one period -/

theorem reduce_id (p x : ℝ) (h0 : 0 ≤ x) (h1 : x ≤ p) : reduce p x = some x := by
  rw [reduce, if_neg]
  rintro (h | h) <;> linarith

theorem reduce_some (p x : ℝ) (hp : 0 < p) (h1 : -2 ^ 63 * p ≤ x) (h2 : x < 2 ^ 63 * p) :
    ∃ k : ℤ, reduce p x = some (x - p * k) ∧ 0 ≤ x - p * k ∧ x - p * k ≤ p := by
  by_cases h : x < 0 ∨ x > p
  · have e : x * (1 / p) = x / p := by ring
    have f1 : -2 ^ 63 ≤ x * (1 / p) := by rw [e, le_div_iff₀ hp]; exact h1
    have f2 : x * (1 / p) < 2 ^ 63 := by rw [e, div_lt_iff₀ hp]; exact h2
    refine ⟨⌊x / p⌋, ?_, ?_, ?_⟩
    · rw [reduce, if_pos h, (floorNaive_iff _).mpr ⟨f1, f2⟩, e]
      rfl
    · have := (le_div_iff₀ hp).mp (Int.floor_le (x / p))
      linarith
    · have := (div_lt_iff₀ hp).mp (Int.lt_floor_add_one (x / p))
      linarith
  · push Not at h
    refine ⟨0, ?_, ?_, ?_⟩
    · rw [reduce_id p x h.1 h.2]; simp
    · simpa using h.1
    · simpa using h.2

/-! ## Cosine and sine -/

/-- A value that approximates another. -/
def Near (r : Option ℝ) (v ε : ℝ) : Prop := ∃ a, r = some a ∧ |a - v| ≤ ε

theorem Near.mono {r : Option ℝ} {v ε δ : ℝ} (h : Near r v ε) (hd : ε ≤ δ) : Near r v δ :=
  let ⟨a, h1, h2⟩ := h; ⟨a, h1, h2.trans hd⟩

theorem Near.neg {r : Option ℝ} {v ε : ℝ} (h : Near r v ε) : Near (r.map fun r => -r) (-v) ε := by
  obtain ⟨a, rfl, h2⟩ := h
  refine ⟨-a, rfl, ?_⟩
  rw [show -a - -v = -(a - v) by ring, abs_neg]
  exact h2

/-- The error of the series on `[0, π/4]`. -/
noncomputable def small (n : ℕ) : ℝ := 1 / (2 * n).factorial

theorem small_pos (n : ℕ) : 0 < small n := by
  rw [small]
  have : (0 : ℝ) < (2 * n).factorial := by exact_mod_cast Nat.factorial_pos _
  positivity

theorem pi_quarter_le_one : pi / 4 ≤ 1 := by
  have : pi ≤ 4 := Real.pi_le_four
  linarith

theorem cosSum_near (n : ℕ) (hn : 1 ≤ n) (x : ℝ) (h0 : 0 ≤ x) (h1 : x ≤ 1) : |cosSum x n - Real.cos x| ≤ small n := by
  obtain ⟨k, rfl⟩ : ∃ k, n = k + 1 := ⟨n - 1, by omega⟩
  rw [abs_sub_comm]
  refine ((taylor k).2 x h0).trans ?_
  rw [small, show 2 * (k + 1) = 2 * k + 2 by ring]
  exact div_le_div_of_nonneg_right (pow_le_one₀ h0 h1) (by positivity)

theorem sinSum_rel (n : ℕ) (x : ℝ) (h0 : 0 ≤ x) (h1 : x ≤ 1) : |sinSum x n - Real.sin x| ≤ x * small n := by
  rw [abs_sub_comm]
  refine ((taylor n).1 x h0).trans ?_
  have e : x ^ (2 * n + 1) ≤ x := by
    rw [pow_succ]
    have := pow_le_one₀ h0 h1 (n := 2 * n)
    nlinarith
  have f : (1 : ℝ) / (2 * n + 1).factorial ≤ small n := by
    rw [small]
    apply one_div_le_one_div_of_le (by positivity)
    exact_mod_cast Nat.factorial_le (by omega)
  calc x ^ (2 * n + 1) / ((2 * n + 1).factorial : ℝ) = x ^ (2 * n + 1) * (1 / (2 * n + 1).factorial) := by ring
    _ ≤ x * small n := mul_le_mul e f (by positivity) h0

theorem sinSum_near (n : ℕ) (x : ℝ) (h0 : 0 ≤ x) (h1 : x ≤ 1) : |sinSum x n - Real.sin x| ≤ small n := by
  refine (sinSum_rel n x h0 h1).trans ?_
  have := small_pos n
  nlinarith

theorem sin_low (n : ℕ) (hn : 1 ≤ n) (d : ℕ) (x : ℝ) (h0 : 0 ≤ x) (h1 : x ≤ pi / 4) :
    sinNaive n (d + 1) x = some (sinSum x n) := by
  have hp := Real.pi_pos
  rw [sinNaive]
  by_cases hx : x = 0
  · rw [if_pos hx, hx, sinSum_zero]
  · rw [if_neg hx, reduce_id _ _ h0 (by linarith), Option.bind_some, if_neg (by linarith), if_neg (by linarith),
      if_neg (by linarith), if_neg (by rintro ⟨h, -⟩; linarith), if_neg (by rintro ⟨h, -⟩; linarith),
      if_neg (by rintro ⟨h, -⟩; linarith), if_neg (by rintro ⟨h, -⟩; linarith), sinSeries_eq x n hn]

theorem cos_low (n : ℕ) (hn : 2 ≤ n) (d : ℕ) (x : ℝ) (h0 : 0 ≤ x) (h1 : x ≤ pi / 4) :
    cosNaive n (d + 1) x = some (cosSum x n) := by
  have hp := Real.pi_pos
  rw [cosNaive, reduce_id _ _ h0 (by linarith), Option.bind_some]
  by_cases hx : x = 0
  · rw [if_pos (Or.inl hx), hx, cosSum_zero n (by omega)]
  · rw [if_neg (by rintro (h | h) <;> [exact hx h; linarith]), if_neg (by rintro (h | h) <;> linarith),
      if_neg (by linarith), if_neg (by rintro ⟨h, -⟩; linarith), if_neg (by rintro ⟨h, -⟩; linarith),
      if_neg (by rintro ⟨h, -⟩; linarith), if_neg (by rintro ⟨h, -⟩; linarith)]
    simp only
    rw [cosSeries_eq x n hn]

theorem sin_quarter (n : ℕ) (hn : 2 ≤ n) (d : ℕ) (x : ℝ) (h0 : 0 ≤ x) (h1 : x ≤ pi / 2) :
    Near (sinNaive n (d + 2) x) (Real.sin x) (small n) := by
  have hp := Real.pi_pos
  have h4 := pi_quarter_le_one
  by_cases h : x ≤ pi / 4
  · exact ⟨_, sin_low n (by omega) (d + 1) x h0 h, sinSum_near n x h0 (by linarith)⟩
  · push Not at h
    rw [sinNaive, if_neg (by linarith), reduce_id _ _ h0 (by linarith), Option.bind_some, if_neg (by linarith)]
    by_cases hx : x = pi / 2
    · rw [if_pos hx, hx, Real.sin_pi_div_two]
      exact ⟨1, rfl, by simpa using (small_pos n).le⟩
    · have hx' : x < pi / 2 := lt_of_le_of_ne h1 hx
      rw [if_neg hx, if_neg (by linarith), if_neg (by rintro ⟨h, -⟩; linarith), if_neg (by rintro ⟨h, -⟩; linarith),
        if_neg (by rintro ⟨h, -⟩; linarith), if_pos ⟨h, hx'⟩]
      refine ⟨_, cos_low n hn d _ (by linarith) (by linarith), ?_⟩
      rw [← Real.cos_pi_div_two_sub x]
      exact cosSum_near n (by omega) _ (by linarith) (by linarith)

theorem cos_quarter (n : ℕ) (hn : 2 ≤ n) (d : ℕ) (x : ℝ) (h0 : 0 ≤ x) (h1 : x ≤ pi / 2) :
    Near (cosNaive n (d + 2) x) (Real.cos x) (small n) := by
  have hp := Real.pi_pos
  have h4 := pi_quarter_le_one
  by_cases h : x ≤ pi / 4
  · exact ⟨_, cos_low n hn (d + 1) x h0 h, cosSum_near n (by omega) x h0 (by linarith)⟩
  · push Not at h
    rw [cosNaive, reduce_id _ _ h0 (by linarith), Option.bind_some, if_neg (by rintro (h | h) <;> linarith)]
    by_cases hx : x = pi / 2
    · rw [if_pos (Or.inl hx), hx, Real.cos_pi_div_two]
      exact ⟨0, rfl, by simpa using (small_pos n).le⟩
    · have hx' : x < pi / 2 := lt_of_le_of_ne h1 hx
      rw [if_neg (by rintro (h | h) <;> [exact hx h; linarith]), if_neg (by linarith),
        if_neg (by rintro ⟨h, -⟩; linarith), if_neg (by rintro ⟨h, -⟩; linarith),
        if_neg (by rintro ⟨h, -⟩; linarith), if_pos ⟨h, hx'⟩]
      refine ⟨_, sin_low n (by omega) d _ (by linarith) (by linarith), ?_⟩
      rw [← Real.sin_pi_div_two_sub x]
      exact sinSum_near n _ (by linarith) (by linarith)

/-- The error of the sine series at a full turn, which is not reduced any further. -/
noncomputable def turn (n : ℕ) : ℝ := (2 * pi) ^ (2 * n + 1) / (2 * n + 1).factorial

theorem small_le_turn (n : ℕ) : small n ≤ turn n := by
  rw [small, turn, Nat.factorial_succ, Nat.cast_mul, div_le_div_iff₀ (by positivity) (by positivity), one_mul]
  apply mul_le_mul_of_nonneg_right _ (by positivity)
  have h2 : (2 : ℝ) ≤ 2 * pi := by linarith [Real.two_le_pi]
  calc ((2 * n + 1 : ℕ) : ℝ) ≤ ((2 ^ (2 * n + 1) : ℕ) : ℝ) := by exact_mod_cast Nat.lt_two_pow_self.le
    _ = (2 : ℝ) ^ (2 * n + 1) := by push_cast; rfl
    _ ≤ (2 * pi) ^ (2 * n + 1) := pow_le_pow_left₀ (by norm_num) h2 _

theorem cos_all (n : ℕ) (hn : 2 ≤ n) (d : ℕ) (x : ℝ) (h1 : -2 ^ 63 * (2 * pi) ≤ x) (h2 : x < 2 ^ 63 * (2 * pi)) :
    Near (cosNaive n (d + 3) x) (Real.cos x) (small n) := by
  have hp := Real.pi_pos
  have hs := (small_pos n).le
  obtain ⟨k, hk, h0, h3⟩ := reduce_some (2 * pi) x (by linarith) h1 h2
  rw [cosNaive, hk, Option.bind_some]
  have e : Real.cos x = Real.cos (x - 2 * pi * k) := by
    rw [show x - 2 * pi * k = x - k * (2 * pi) by ring, Real.cos_sub_int_mul_two_pi]
  rw [e]
  generalize x - 2 * pi * k = y at h0 h3
  split_ifs with c1 c2 c3 c4 c5 c6 c7
  · rcases c1 with rfl | rfl
    · exact ⟨1, rfl, by simpa using hs⟩
    · exact ⟨1, rfl, by simpa using hs⟩
  · rcases c2 with rfl | rfl
    · exact ⟨0, rfl, by simpa using hs⟩
    · have : Real.cos (3 * pi / 2) = 0 := by
        rw [show 3 * pi / 2 = pi / 2 + pi by ring, Real.cos_add_pi, Real.cos_pi_div_two, neg_zero]
      exact ⟨0, rfl, by simpa [this] using hs⟩
  · exact ⟨-1, rfl, by rw [c3]; simpa using hs⟩
  · have h := cos_quarter n hn d (pi - y) (by linarith) (by linarith)
    rw [Real.cos_pi_sub] at h
    simpa using h.neg
  · have h := cos_quarter n hn d (y - pi) (by linarith) (by linarith)
    rw [Real.cos_sub_pi] at h
    simpa using h.neg
  · have h := cos_quarter n hn d (2 * pi - y) (by linarith) (by linarith)
    rwa [Real.cos_two_pi_sub] at h
  · have h := sin_quarter n hn d (pi / 2 - y) (by linarith) (by linarith)
    rwa [Real.sin_pi_div_two_sub] at h
  · have hy : y ≤ pi / 4 := by
      by_contra hc
      push Not at c1 c2 hc
      rcases lt_trichotomy y (pi / 2) with h | h | h
      · exact c7 ⟨hc, h⟩
      · exact c2.1 h
      rcases lt_trichotomy y pi with h' | h' | h'
      · exact c4 ⟨h, h'⟩
      · exact c3 h'
      rcases lt_trichotomy y (3 * pi / 2) with h'' | h'' | h''
      · exact c5 ⟨h', h''⟩
      · exact c2.2 h''
      · exact c6 ⟨h'', lt_of_le_of_ne h3 c1.2⟩
    refine ⟨_, rfl, ?_⟩
    simp only
    rw [cosSeries_eq y n hn]
    exact cosSum_near n (by omega) y h0 (by linarith [pi_quarter_le_one])

theorem sin_all (n : ℕ) (hn : 2 ≤ n) (d : ℕ) (x : ℝ) (h1 : -2 ^ 63 * (2 * pi) ≤ x) (h2 : x < 2 ^ 63 * (2 * pi)) :
    Near (sinNaive n (d + 3) x) (Real.sin x) (if x = 2 * pi then turn n else small n) := by
  have hp := Real.pi_pos
  have hs : 0 ≤ if x = 2 * pi then turn n else small n := by
    split_ifs
    · exact (small_pos n).le.trans (small_le_turn n)
    · exact (small_pos n).le
  by_cases hx : x = 0
  · rw [sinNaive, if_pos hx]
    exact ⟨x, rfl, by rw [hx, Real.sin_zero]; simpa [hx] using hs⟩
  by_cases hx2 : x = 2 * pi
  · rw [if_pos hx2]
    rw [sinNaive, if_neg hx, reduce_id _ _ (by linarith) (by linarith), Option.bind_some, if_neg (by linarith),
      if_neg (by linarith), if_neg (by linarith), if_neg (by rintro ⟨-, h⟩; linarith), if_neg (by rintro ⟨-, h⟩; linarith),
      if_neg (by rintro ⟨-, h⟩; linarith), if_neg (by rintro ⟨-, h⟩; linarith), sinSeries_eq x n (by omega)]
    refine ⟨_, rfl, ?_⟩
    rw [abs_sub_comm, turn, ← hx2]
    exact (taylor n).1 x (by linarith)
  have hlow : ∀ y, 0 ≤ y → y ≤ pi / 4 → |sinSum y n - Real.sin y| ≤ small n :=
    fun y h0 h3 => sinSum_near n y h0 (by linarith [pi_quarter_le_one])
  rw [if_neg hx2] at hs ⊢
  obtain ⟨k, hk, h0, h3⟩ := reduce_some (2 * pi) x (by linarith) h1 h2
  rw [sinNaive, if_neg hx, hk, Option.bind_some]
  have e : Real.sin x = Real.sin (x - 2 * pi * k) := by
    rw [show x - 2 * pi * k = x - k * (2 * pi) by ring, Real.sin_sub_int_mul_two_pi]
  have h4 : x - 2 * pi * k < 2 * pi := by
    by_cases h : x < 0 ∨ x > 2 * pi
    · rw [reduce, if_pos h, (floorNaive_iff _).mpr ⟨by
        rw [show x * (1 / (2 * pi)) = x / (2 * pi) by ring, le_div_iff₀ (by linarith)]; exact h1, by
        rw [show x * (1 / (2 * pi)) = x / (2 * pi) by ring, div_lt_iff₀ (by linarith)]; exact h2⟩] at hk
      simp only [Option.map_some, Option.some.injEq] at hk
      rw [← hk]
      have := Int.lt_floor_add_one (x * (1 / (2 * pi)))
      rw [show x * (1 / (2 * pi)) = x / (2 * pi) by ring] at this ⊢
      rw [div_lt_iff₀ (by linarith)] at this
      linarith
    · push Not at h
      rw [reduce_id _ _ h.1 h.2] at hk
      injection hk with hk
      rw [← hk]
      exact lt_of_le_of_ne h.2 hx2
  rw [e]
  generalize x - 2 * pi * k = y at h0 h3 h4
  split_ifs with c1 c2 c3 c4 c5 c6 c7
  · exact ⟨0, rfl, by rw [c1]; simpa using hs⟩
  · exact ⟨1, rfl, by rw [c2]; simpa using hs⟩
  · have : Real.sin (3 * pi / 2) = -1 := by
      rw [show 3 * pi / 2 = pi / 2 + pi by ring, Real.sin_add_pi, Real.sin_pi_div_two]
    exact ⟨-1, rfl, by rw [c3, this]; simpa using hs⟩
  · have h := sin_quarter n hn d (pi - y) (by linarith) (by linarith)
    rwa [Real.sin_pi_sub] at h
  · have h := sin_quarter n hn d (y - pi) (by linarith) (by linarith)
    rw [Real.sin_sub_pi] at h
    simpa using h.neg
  · have h := sin_quarter n hn d (2 * pi - y) (by linarith) (by linarith)
    rw [Real.sin_two_pi_sub] at h
    simpa using h.neg
  · have h := cos_quarter n hn d (pi / 2 - y) (by linarith) (by linarith)
    rwa [Real.cos_pi_div_two_sub] at h
  · have hy : y ≤ pi / 4 := by
      by_contra hc
      push Not at hc
      rcases lt_trichotomy y (pi / 2) with h | h | h
      · exact c7 ⟨hc, h⟩
      · exact c2 h
      rcases lt_trichotomy y pi with h' | h' | h'
      · exact c4 ⟨h, h'⟩
      · exact c1 h'
      rcases lt_trichotomy y (3 * pi / 2) with h'' | h'' | h''
      · exact c5 ⟨h', h''⟩
      · exact c3 h''
      · exact c6 ⟨h'', h4⟩
    refine ⟨_, rfl, ?_⟩
    rw [sinSeries_eq y n (by omega)]
    exact hlow y h0 hy

end Verif.Proofs.ConstMath
