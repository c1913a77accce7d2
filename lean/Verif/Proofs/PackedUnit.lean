import Verif.Model.PackedUnit
import Verif.Proofs.Float
/-! Lemmas about the packed unit vector model. -/
namespace Verif.Proofs.PackedUnit
open Verif.Spec.Float Verif.Model.PackedUnit Verif.Proofs.Float

/-- the supported sizes -/
def Size (n : ℕ) : Prop := n = 8 ∨ n = 16 ∨ n = 32 ∨ n = 64

theorem bits3 {n : ℕ} (h : Size n) : xBits n 3 = yBits n 3 + 1 ∧ n = xBits n 3 + yBits n 3 + 3 ∧ 2 ≤ yBits n 3 := by
  rcases h with rfl | rfl | rfl | rfl <;> decide

theorem bits2 {n : ℕ} (h : Size n) : n = xBits n 2 + 2 ∧ 6 ≤ xBits n 2 := by
  rcases h with rfl | rfl | rfl | rfl <;> decide

/-! ### bits -/

theorem negative_eq (n i b : ℕ) : negative n i b = b.testBit (n - 1 - i) := by
  unfold negative signBit
  generalize n - 1 - i = k
  cases h : b.testBit k
  · rw [decide_eq_false_iff_not, not_not]
    apply Nat.eq_of_testBit_eq
    intro j
    rw [Nat.testBit_and, Nat.testBit_two_pow, Nat.zero_testBit]
    by_cases hj : k = j
    · subst hj; simp [h]
    · simp [hj]
  · rw [decide_eq_true_eq]
    intro h0
    have := congrArg (fun m => m.testBit k) h0
    simp [Nat.testBit_and, Nat.testBit_two_pow, h] at this

theorem sign_test {n i a k : ℕ} (ha : a = 0 ∨ a = signBit n i) : a.testBit k = (decide (a ≠ 0) && decide (k = n - 1 - i)) := by
  rcases ha with rfl | rfl
  · simp
  · have : signBit n i ≠ 0 := by unfold signBit; positivity
    rw [decide_eq_true this, Bool.true_and]
    unfold signBit
    rw [Nat.testBit_two_pow]
    congr 1; simp [eq_comm]

/-- three sign bits above `m` value bits -/
theorem value_bits3 {n v m a b c : ℕ} (hm : m + 3 = n) (hv : v < 2 ^ m) (ha : a = 0 ∨ a = signBit n 0) (hb : b = 0 ∨ b = signBit n 1)
    (hc : c = 0 ∨ c = signBit n 2) :
    (∀ k < m, (a ||| b ||| c ||| v).testBit k = v.testBit k) ∧
    negative n 0 (a ||| b ||| c ||| v) = decide (a ≠ 0) ∧ negative n 1 (a ||| b ||| c ||| v) = decide (b ≠ 0) ∧
    negative n 2 (a ||| b ||| c ||| v) = decide (c ≠ 0) ∧ (a ||| b ||| c ||| v) ≤ 2 ^ n - 1 := by
  have hvt : ∀ k, m ≤ k → v.testBit k = false := fun k hk =>
    Nat.testBit_lt_two_pow (lt_of_lt_of_le hv (Nat.pow_le_pow_right (by norm_num) hk))
  refine ⟨fun k hk => ?_, ?_, ?_, ?_, ?_⟩
  · rw [Nat.testBit_or, Nat.testBit_or, Nat.testBit_or, sign_test ha, sign_test hb, sign_test hc,
      decide_eq_false (p := k = n - 1 - 0) (by omega), decide_eq_false (p := k = n - 1 - 1) (by omega), decide_eq_false (p := k = n - 1 - 2) (by omega)]
    simp
  · rw [negative_eq, Nat.testBit_or, Nat.testBit_or, Nat.testBit_or, sign_test ha, sign_test hb, sign_test hc, hvt _ (by omega),
      decide_eq_false (p := n - 1 - 0 = n - 1 - 1) (by omega), decide_eq_false (p := n - 1 - 0 = n - 1 - 2) (by omega)]
    simp
  · rw [negative_eq, Nat.testBit_or, Nat.testBit_or, Nat.testBit_or, sign_test ha, sign_test hb, sign_test hc, hvt _ (by omega),
      decide_eq_false (p := n - 1 - 1 = n - 1 - 0) (by omega), decide_eq_false (p := n - 1 - 1 = n - 1 - 2) (by omega)]
    simp
  · rw [negative_eq, Nat.testBit_or, Nat.testBit_or, Nat.testBit_or, sign_test ha, sign_test hb, sign_test hc, hvt _ (by omega),
      decide_eq_false (p := n - 1 - 2 = n - 1 - 0) (by omega), decide_eq_false (p := n - 1 - 2 = n - 1 - 1) (by omega)]
    simp
  · have hs : ∀ i, i < n → signBit n i < 2 ^ n := fun i hi => Nat.pow_lt_pow_right (by norm_num) (by omega)
    have hp : 0 < 2 ^ n := by positivity
    have h1 : a < 2 ^ n := by rcases ha with rfl | rfl; exacts [hp, hs 0 (by omega)]
    have h2 : b < 2 ^ n := by rcases hb with rfl | rfl; exacts [hp, hs 1 (by omega)]
    have h3 : c < 2 ^ n := by rcases hc with rfl | rfl; exacts [hp, hs 2 (by omega)]
    have h4 : v < 2 ^ n := lt_of_lt_of_le hv (Nat.pow_le_pow_right (by norm_num) (by omega))
    have := Nat.or_lt_two_pow (Nat.or_lt_two_pow (Nat.or_lt_two_pow h1 h2) h3) h4
    omega

/-- two sign bits above `m` value bits -/
theorem value_bits2 {n v m a b : ℕ} (hm : m + 2 = n) (hv : v < 2 ^ m) (ha : a = 0 ∨ a = signBit n 0) (hb : b = 0 ∨ b = signBit n 1) :
    (a ||| b ||| v) &&& (2 ^ m - 1) = v ∧
    negative n 0 (a ||| b ||| v) = decide (a ≠ 0) ∧ negative n 1 (a ||| b ||| v) = decide (b ≠ 0) ∧ (a ||| b ||| v) ≤ 2 ^ n - 1 := by
  have hvt : ∀ k, m ≤ k → v.testBit k = false := fun k hk =>
    Nat.testBit_lt_two_pow (lt_of_lt_of_le hv (Nat.pow_le_pow_right (by norm_num) hk))
  refine ⟨?_, ?_, ?_, ?_⟩
  · apply Nat.eq_of_testBit_eq
    intro k
    rw [Nat.testBit_and, Nat.testBit_two_pow_sub_one]
    by_cases hk : k < m
    · rw [Nat.testBit_or, Nat.testBit_or, sign_test ha, sign_test hb,
        decide_eq_false (p := k = n - 1 - 0) (by omega), decide_eq_false (p := k = n - 1 - 1) (by omega)]
      simp [hk]
    · rw [hvt k (by omega)]; simp [hk]
  · rw [negative_eq, Nat.testBit_or, Nat.testBit_or, sign_test ha, sign_test hb, hvt _ (by omega),
      decide_eq_false (p := n - 1 - 0 = n - 1 - 1) (by omega)]
    simp
  · rw [negative_eq, Nat.testBit_or, Nat.testBit_or, sign_test ha, sign_test hb, hvt _ (by omega),
      decide_eq_false (p := n - 1 - 1 = n - 1 - 0) (by omega)]
    simp
  · have hs : ∀ i, i < n → signBit n i < 2 ^ n := fun i hi => Nat.pow_lt_pow_right (by norm_num) (by omega)
    have hp : 0 < 2 ^ n := by positivity
    have h1 : a < 2 ^ n := by rcases ha with rfl | rfl; exacts [hp, hs 0 (by omega)]
    have h2 : b < 2 ^ n := by rcases hb with rfl | rfl; exacts [hp, hs 1 (by omega)]
    have h4 : v < 2 ^ n := lt_of_lt_of_le hv (Nat.pow_le_pow_right (by norm_num) (by omega))
    have := Nat.or_lt_two_pow (Nat.or_lt_two_pow h1 h2) h4
    omega

/-- what the value bits of a folded pair are, and that they are read back -/
theorem fold3 {n i j s : ℕ} (h : Size n) (hi : i ≤ xRange n 3) (hj : j ≤ yRange n 3)
    (hs : ∀ k < xBits n 3 + yBits n 3, s.testBit k = ((i <<< yBits n 3) ||| j).testBit k) :
    (s &&& xMask n 3) >>> yBits n 3 = i ∧ s &&& yMask n 3 = j ∧ ((i <<< yBits n 3) ||| j) < 2 ^ (xBits n 3 + yBits n 3) := by
  obtain ⟨h1, h2, h3⟩ := bits3 h
  unfold xMask yMask xRange yRange at *
  generalize xBits n 3 = xb at *
  generalize yBits n 3 = yb at *
  have px : 0 < 2 ^ xb := by positivity
  have py : 0 < 2 ^ yb := by positivity
  have hi' : i < 2 ^ xb := by omega
  have hj' : j < 2 ^ yb := by omega
  refine ⟨?_, ?_, ?_⟩
  · apply Nat.eq_of_testBit_eq
    intro k
    rw [Nat.testBit_shiftRight, Nat.testBit_and, Nat.testBit_shiftLeft, Nat.testBit_two_pow_sub_one]
    by_cases hk : k < xb
    · rw [hs _ (by omega), Nat.testBit_or, Nat.testBit_shiftLeft,
        Nat.testBit_lt_two_pow (lt_of_lt_of_le hj' (Nat.pow_le_pow_right (by norm_num) (by omega : yb ≤ yb + k)))]
      simp [hk]
    · rw [Nat.testBit_lt_two_pow (lt_of_lt_of_le hi' (Nat.pow_le_pow_right (by norm_num) (by omega : xb ≤ k)))]
      simp [hk]
  · apply Nat.eq_of_testBit_eq
    intro k
    rw [Nat.testBit_and, Nat.testBit_two_pow_sub_one]
    by_cases hk : k < yb
    · rw [hs _ (by omega), Nat.testBit_or, Nat.testBit_shiftLeft]
      simp [hk]
    · rw [Nat.testBit_lt_two_pow (lt_of_lt_of_le hj' (Nat.pow_le_pow_right (by norm_num) (by omega : yb ≤ k)))]
      simp [hk]
  · refine Nat.or_lt_two_pow ?_ (lt_of_lt_of_le hj' (Nat.pow_le_pow_right (by norm_num) (by omega)))
    rw [Nat.shiftLeft_eq, pow_add]
    exact Nat.mul_lt_mul_of_pos_right hi' py

/-- the folded pair, and how it is unfolded -/
theorem encode3_spec {n ix iy : ℕ} (h : Size n) (hx : ix ≤ xRange n 3) (hy : iy ≤ xRange n 3) :
    ∃ v, encode3 n ix iy = some v ∧ v < 2 ^ (xBits n 3 + yBits n 3) ∧
      ∀ s, (∀ k < xBits n 3 + yBits n 3, s.testBit k = v.testBit k) →
        (ix + iy < xRange n 3 ∨ (ix + iy = xRange n 3 ∧ 2 * iy < 2 ^ xBits n 3) → decode3 n s = (ix, iy)) ∧
        (ix + iy = xRange n 3 ∧ 2 ^ xBits n 3 ≤ 2 * iy → decode3 n s = (iy, ix)) := by
  obtain ⟨h1, h2, h3⟩ := bits3 h
  have hp : 2 ^ xBits n 3 = 2 * 2 ^ yBits n 3 := by rw [h1, pow_succ]; ring
  have py : 0 < 2 ^ yBits n 3 := by positivity
  have hR : xRange n 3 = 2 ^ xBits n 3 - 1 := rfl
  have hyR : yRange n 3 = 2 ^ yBits n 3 - 1 := rfl
  by_cases hc : iy ≥ 2 ^ xBits n 3 / 2
  · have b1 : xRange n 3 - ix ≤ xRange n 3 := by omega
    have b2 : xRange n 3 - iy ≤ yRange n 3 := by omega
    refine ⟨_, by simp only [encode3, assume, if_pos hc, if_pos b1, if_pos b2], (fold3 h b1 b2 (fun _ _ => rfl)).2.2, ?_⟩
    intro s hs
    obtain ⟨e1, e2, _⟩ := fold3 h b1 b2 hs
    unfold decode3
    simp only [e1, e2]
    constructor
    · intro hh
      rw [if_pos (by omega)]
      ext <;> simp <;> omega
    · intro hh
      rw [if_neg (by omega)]
      ext <;> simp <;> omega
  · have b2 : iy ≤ yRange n 3 := by omega
    refine ⟨_, by simp only [encode3, assume, if_neg hc, if_pos hx, if_pos b2], (fold3 h hx b2 (fun _ _ => rfl)).2.2, ?_⟩
    intro s hs
    obtain ⟨e1, e2, _⟩ := fold3 h hx b2 hs
    unfold decode3
    simp only [e1, e2]
    constructor
    · intro hh
      rw [if_neg (by omega)]
    · intro hh
      omega

/-! ### rounding -/

/-- quantising a projected component -/
theorem quantize_spec {n d p : ℕ} {v : ℚ} (hp : 1 ≤ p) (hR : 2 ≤ xRange n d) (hRp : xRange n d ≤ 2 ^ p) (hRn : xRange n d < 2 ^ max n 32)
    (h0 : 0 ≤ v) (h1 : v ≤ 1) :
    ∃ i : ℕ, quantize n d p v = some i ∧ i ≤ xRange n d ∧
      (i : ℚ) * 2 ^ p ≤ (v * (xRange n d - 1) + 1 / 2) * 2 ^ p + 2 * xRange n d ∧
      (v * (xRange n d - 1) + 1 / 2) * 2 ^ p ≤ ((i : ℚ) + 1) * 2 ^ p + 2 * xRange n d := by
  unfold quantize
  generalize xRange n d = R at *
  have hc : ((R - 1 : ℕ) : ℚ) = R - 1 := by push_cast [Nat.cast_sub (by omega : 1 ≤ R)]; rfl
  have hr : rnd p ((R - 1 : ℕ) : ℚ) = R - 1 := by rw [rnd_nat p hp _ (by omega), hc]
  have hR' : (2 : ℚ) ≤ R := by exact_mod_cast hR
  have hU : (0 : ℚ) < 2 ^ p := by positivity
  rw [hr]
  have hP0 : 0 ≤ v * ((R : ℚ) - 1) := mul_nonneg h0 (by linarith)
  have hP1 : v * ((R : ℚ) - 1) ≤ R - 1 := by nlinarith
  have hPe := rnd_err p (v * ((R : ℚ) - 1))
  have hPm : rnd p (v * ((R : ℚ) - 1)) ≤ R - 1 := by
    have := rnd_mono p hp hP1
    rwa [← hc, rnd_nat p hp _ (by omega), hc] at this
  have hPn := rnd_nonneg p hP0
  generalize rnd p (v * ((R : ℚ) - 1)) = P at *
  have hQe := rnd_err p (P + 1 / 2)
  have hQm : rnd p (P + 1 / 2) ≤ R := by
    have := rnd_mono p hp (show P + 1 / 2 ≤ (R : ℚ) by linarith)
    rwa [rnd_nat p hp _ hRp] at this
  have hQn := rnd_nonneg p (show 0 ≤ P + 1 / 2 by linarith)
  generalize rnd p (P + 1 / 2) = Q at *
  have hf : (⌊Q⌋₊ : ℚ) ≤ Q := Nat.floor_le hQn
  have hf2 : Q < ⌊Q⌋₊ + 1 := Nat.lt_floor_add_one Q
  have hfR : ⌊Q⌋₊ ≤ R := by
    have : (⌊Q⌋₊ : ℚ) ≤ R := hf.trans hQm
    exact_mod_cast this
  refine ⟨⌊Q⌋₊, ?_, hfR, ?_, ?_⟩
  · unfold toArith
    rw [if_pos ⟨hQn, lt_of_le_of_lt hQm (by exact_mod_cast hRn)⟩]
  · rw [abs_of_nonneg hP0] at hPe
    rw [abs_of_nonneg (by linarith : 0 ≤ P + 1 / 2)] at hQe
    have a1 := mul_le_mul_of_nonneg_right (le_abs_self (P - v * ((R : ℚ) - 1))) hU.le
    have a2 := mul_le_mul_of_nonneg_right (le_abs_self (Q - (P + 1 / 2))) hU.le
    have a3 := mul_le_mul_of_nonneg_right hf hU.le
    nlinarith
  · rw [abs_of_nonneg hP0] at hPe
    rw [abs_of_nonneg (by linarith : 0 ≤ P + 1 / 2)] at hQe
    have a1 := mul_le_mul_of_nonneg_right (neg_le_abs (P - v * ((R : ℚ) - 1))) hU.le
    have a2 := mul_le_mul_of_nonneg_right (neg_le_abs (Q - (P + 1 / 2))) hU.le
    have a3 := mul_le_mul_of_nonneg_right hf2.le hU.le
    nlinarith

/-- two-sided relative error -/
theorem rnd_bounds (p : ℕ) {q : ℚ} (h : 0 ≤ q) : q * (2 ^ p - 1) ≤ rnd p q * 2 ^ p ∧ rnd p q * 2 ^ p ≤ q * (2 ^ p + 1) := by
  have he := rnd_err p q
  have hU : (0 : ℚ) < 2 ^ p := by positivity
  rw [abs_of_nonneg h] at he
  have a1 := mul_le_mul_of_nonneg_right (le_abs_self (rnd p q - q)) hU.le
  have a2 := mul_le_mul_of_nonneg_right (neg_le_abs (rnd p q - q)) hU.le
  constructor <;> nlinarith

/-- the projection: `v * (1 / ((x + y) + z))` in floating point, for a component `v` of the sum `s` -/
theorem project_spec {p : ℕ} {x y z v : ℚ} (hp : 5 ≤ p) (hx : 0 ≤ x) (hy : 0 ≤ y) (hz : 0 ≤ z) (hs : 0 < x + y + z)
    (hv : 0 ≤ v) (hvs : v ≤ rnd p (rnd p (x + y) + z)) :
    0 < rnd p (rnd p (x + y) + z) ∧
    0 ≤ rnd p (v * rnd p (1 / rnd p (rnd p (x + y) + z))) ∧ rnd p (v * rnd p (1 / rnd p (rnd p (x + y) + z))) ≤ 1 ∧
    |rnd p (v * rnd p (1 / rnd p (rnd p (x + y) + z))) * (x + y + z) - v| * 2 ^ p ≤ 5 * v := by
  have hU : (32 : ℚ) ≤ 2 ^ p := by
    calc (32 : ℚ) = 2 ^ 5 := by norm_num
      _ ≤ 2 ^ p := pow_le_pow_right₀ (by norm_num) hp
  obtain ⟨a1, a2⟩ := rnd_bounds p (show 0 ≤ x + y by linarith)
  have an := rnd_nonneg p (show 0 ≤ x + y by linarith)
  generalize rnd p (x + y) = a at *
  obtain ⟨b1, b2⟩ := rnd_bounds p (show 0 ≤ a + z by linarith)
  have bn := rnd_nonneg p (show 0 ≤ a + z by linarith)
  generalize rnd p (a + z) = S at *
  set U : ℚ := 2 ^ p with hUd
  set s := x + y + z with hsd
  -- bounds of S
  have c1 : s * (U - 1) ^ 2 ≤ S * U ^ 2 := by
    have : (x + y + z) * (U - 1) ≤ (a + z) * U := by nlinarith
    nlinarith
  have c2 : S * U ^ 2 ≤ s * (U + 1) ^ 2 := by
    have : (a + z) * U ≤ (x + y + z) * (U + 1) := by nlinarith
    nlinarith
  have hS : 0 < S := by
    have : 0 < S * U ^ 2 := lt_of_lt_of_le (mul_pos hs (by nlinarith)) c1
    exact (pos_iff_pos_of_mul_pos this).2 (by positivity)
  have hi : 0 < 1 / S := by positivity
  obtain ⟨d1, d2⟩ := rnd_bounds p hi.le
  have dn := rnd_nonneg p hi.le
  generalize rnd p (1 / S) = r at *
  -- r * S within (1 ± 1/U)
  have e1 : U - 1 ≤ r * S * U := by
    have := mul_le_mul_of_nonneg_right d1 hS.le
    have h' : 1 / S * (U - 1) * S = U - 1 := by field_simp
    rw [h'] at this; linarith
  have e2 : r * S * U ≤ U + 1 := by
    have := mul_le_mul_of_nonneg_right d2 hS.le
    have h' : 1 / S * (U + 1) * S = U + 1 := by field_simp
    rw [h'] at this; linarith
  have hvr : 0 ≤ v * r := mul_nonneg hv dn
  obtain ⟨f1, f2⟩ := rnd_bounds p hvr
  have fn := rnd_nonneg p hvr
  have f3 : rnd p (v * r) ≤ 1 := by
    apply rnd_le_one p (by omega)
    rw [← hUd]
    have : v * r ≤ S * r := mul_le_mul_of_nonneg_right hvs dn
    nlinarith
  generalize rnd p (v * r) = w at *
  refine ⟨hS, fn, f3, ?_⟩
  -- w s U between v (1 - 5/U) and v (1 + 5/U)
  have hU0 : 0 < U := by linarith
  -- upper: w U ≤ v r (U+1); r S U ≤ U+1; s (U-1)^2 ≤ S U^2
  have hw : 0 ≤ w * U := mul_nonneg fn hU0.le
  have hSU : 0 ≤ S * U ^ 2 := by positivity
  have up : w * s * U * (U - 1) ^ 2 ≤ v * (U + 1) ^ 2 * U := by
    calc w * s * U * (U - 1) ^ 2 = w * U * (s * (U - 1) ^ 2) := by ring
      _ ≤ w * U * (S * U ^ 2) := mul_le_mul_of_nonneg_left c1 hw
      _ ≤ v * r * (U + 1) * (S * U ^ 2) := mul_le_mul_of_nonneg_right f2 hSU
      _ = v * (U + 1) * U * (r * S * U) := by ring
      _ ≤ v * (U + 1) * U * (U + 1) := mul_le_mul_of_nonneg_left e2 (mul_nonneg (mul_nonneg hv (by linarith)) hU0.le)
      _ = v * (U + 1) ^ 2 * U := by ring
  have lo : v * (U - 1) ^ 2 * U ≤ w * s * U * (U + 1) ^ 2 := by
    calc v * (U - 1) ^ 2 * U = v * (U - 1) * U * (U - 1) := by ring
      _ ≤ v * (U - 1) * U * (r * S * U) := mul_le_mul_of_nonneg_left e1 (mul_nonneg (mul_nonneg hv (by linarith)) hU0.le)
      _ = v * r * (U - 1) * (S * U ^ 2) := by ring
      _ ≤ w * U * (S * U ^ 2) := mul_le_mul_of_nonneg_right f1 hSU
      _ ≤ w * U * (s * (U + 1) ^ 2) := mul_le_mul_of_nonneg_left c2 hw
      _ = w * s * U * (U + 1) ^ 2 := by ring
  have up' : w * s * U ≤ v * (U + 5) := by
    have k : (U + 1) ^ 2 * U ≤ (U + 5) * (U - 1) ^ 2 := by nlinarith
    have : w * s * U * (U - 1) ^ 2 ≤ v * (U + 5) * (U - 1) ^ 2 := by
      calc _ ≤ v * (U + 1) ^ 2 * U := up
        _ = v * ((U + 1) ^ 2 * U) := by ring
        _ ≤ v * ((U + 5) * (U - 1) ^ 2) := mul_le_mul_of_nonneg_left k hv
        _ = _ := by ring
    exact le_of_mul_le_mul_right this (by apply pow_pos; linarith)
  have lo' : v * (U - 5) ≤ w * s * U := by
    have k : (U - 5) * (U + 1) ^ 2 ≤ (U - 1) ^ 2 * U := by nlinarith
    have : v * (U - 5) * (U + 1) ^ 2 ≤ w * s * U * (U + 1) ^ 2 := by
      calc _ = v * ((U - 5) * (U + 1) ^ 2) := by ring
        _ ≤ v * ((U - 1) ^ 2 * U) := mul_le_mul_of_nonneg_left k hv
        _ = v * (U - 1) ^ 2 * U := by ring
        _ ≤ _ := lo
    exact le_of_mul_le_mul_right this (by apply pow_pos; linarith)
  rcases le_total (w * s) v with hh | hh
  · rw [abs_of_nonpos (by linarith)]; linarith
  · rw [abs_of_nonneg (by linarith)]; linarith

/-- in two dimensions -/
theorem project2_spec {p : ℕ} {x y : ℚ} (hp : 5 ≤ p) (hx : 0 ≤ x) (hy : 0 ≤ y) (hs : 0 < x + y) (hvs : x ≤ rnd p (x + y)) :
    0 < rnd p (x + y) ∧ 0 ≤ rnd p (x / rnd p (x + y)) ∧ rnd p (x / rnd p (x + y)) ≤ 1 ∧
    |rnd p (x / rnd p (x + y)) * (x + y) - x| * 2 ^ p ≤ 5 * x := by
  have hU : (32 : ℚ) ≤ 2 ^ p := by
    calc (32 : ℚ) = 2 ^ 5 := by norm_num
      _ ≤ 2 ^ p := pow_le_pow_right₀ (by norm_num) hp
  obtain ⟨a1, a2⟩ := rnd_bounds p (show 0 ≤ x + y by linarith)
  have an := rnd_nonneg p (show 0 ≤ x + y by linarith)
  generalize rnd p (x + y) = S at *
  set U : ℚ := 2 ^ p with hUd
  set s := x + y with hsd
  have hU0 : 0 < U := by linarith
  have hS : 0 < S := by
    have : 0 < S * U := lt_of_lt_of_le (mul_pos hs (by linarith)) a1
    exact (pos_iff_pos_of_mul_pos this).2 hU0
  have hi : 0 ≤ x / S := by positivity
  obtain ⟨d1, d2⟩ := rnd_bounds p hi
  have dn := rnd_nonneg p hi
  have d3 : rnd p (x / S) ≤ 1 := by
    have := rnd_mono p (by omega) ((div_le_one hS).2 hvs)
    rwa [show rnd p 1 = 1 by have := rnd_nat p (by omega) 1 Nat.one_le_two_pow; exact_mod_cast this] at this
  generalize rnd p (x / S) = w at *
  refine ⟨hS, dn, d3, ?_⟩
  have e1 : x * (U - 1) ≤ w * S * U := by
    have := mul_le_mul_of_nonneg_right d1 hS.le
    have h' : x / S * (U - 1) * S = x * (U - 1) := by field_simp
    rw [h'] at this; linarith
  have e2 : w * S * U ≤ x * (U + 1) := by
    have := mul_le_mul_of_nonneg_right d2 hS.le
    have h' : x / S * (U + 1) * S = x * (U + 1) := by field_simp
    rw [h'] at this; linarith
  have up : w * s * U ≤ x * (U + 5) := by
    have k : (U + 1) * U ≤ (U + 5) * (U - 1) := by nlinarith
    have : w * s * U * (U - 1) ≤ x * (U + 5) * (U - 1) := by
      calc _ = w * U * (s * (U - 1)) := by ring
        _ ≤ w * U * (S * U) := mul_le_mul_of_nonneg_left a1 (by positivity)
        _ = w * S * U * U := by ring
        _ ≤ x * (U + 1) * U := mul_le_mul_of_nonneg_right e2 hU0.le
        _ = x * ((U + 1) * U) := by ring
        _ ≤ x * ((U + 5) * (U - 1)) := mul_le_mul_of_nonneg_left k hx
        _ = _ := by ring
    exact le_of_mul_le_mul_right this (by linarith)
  have lo : x * (U - 5) ≤ w * s * U := by
    have k : (U - 5) * (U + 1) ≤ (U - 1) * U := by nlinarith
    have : x * (U - 5) * (U + 1) ≤ w * s * U * (U + 1) := by
      calc _ = x * ((U - 5) * (U + 1)) := by ring
        _ ≤ x * ((U - 1) * U) := mul_le_mul_of_nonneg_left k hx
        _ = x * (U - 1) * U := by ring
        _ ≤ w * S * U * U := mul_le_mul_of_nonneg_right e1 hU0.le
        _ = w * U * (S * U) := by ring
        _ ≤ w * U * (s * (U + 1)) := mul_le_mul_of_nonneg_left a2 (by positivity)
        _ = _ := by ring
    exact le_of_mul_le_mul_right this (by linarith)
  rcases le_total (w * s) x with hh | hh
  · rw [abs_of_nonpos (by linarith)]; linarith
  · rw [abs_of_nonneg (by linarith)]; linarith

/-- the integer coordinate of a component: `i ≈ (v / s) * (R - 1) + 1/2`, rounded down -/
theorem coord_spec {R i : ℕ} {U s v w : ℚ} (hR : 2 ≤ R) (hU : 18 * (R : ℚ) ≤ U) (hs : 0 < s) (hv : 0 ≤ v) (hvs : v ≤ s)
    (hw : |w * s - v| * U ≤ 5 * v)
    (h1 : (i : ℚ) * U ≤ (w * (R - 1) + 1 / 2) * U + 2 * R) (h2 : (w * (R - 1) + 1 / 2) * U ≤ ((i : ℚ) + 1) * U + 2 * R) :
    (i : ℚ) * s * U ≤ (v * (R - 1) + s / 2) * U + 5 * v * (R - 1) + 2 * R * s ∧
    |(i : ℚ) * s - v * R| ≤ 2 * s := by
  have hR' : (2 : ℚ) ≤ R := by exact_mod_cast hR
  have hU0 : 0 < U := by linarith
  have a1 := mul_le_mul_of_nonneg_right (le_abs_self (w * s - v)) hU0.le
  have a2 := mul_le_mul_of_nonneg_right (neg_le_abs (w * s - v)) hU0.le
  have u1 : w * s * U ≤ v * U + 5 * v := by linarith
  have u2 : v * U - 5 * v ≤ w * s * U := by linarith
  have b1 := mul_le_mul_of_nonneg_right h1 hs.le
  have b2 := mul_le_mul_of_nonneg_right h2 hs.le
  have c1 := mul_le_mul_of_nonneg_right u1 (by linarith : (0 : ℚ) ≤ R - 1)
  have c2 := mul_le_mul_of_nonneg_right u2 (by linarith : (0 : ℚ) ≤ R - 1)
  have up : (i : ℚ) * s * U ≤ (v * (R - 1) + s / 2) * U + 5 * v * (R - 1) + 2 * R * s := by linarith
  have lo : (v * (R - 1) + s / 2) * U - 5 * v * (R - 1) - 2 * R * s ≤ ((i : ℚ) * s + s) * U := by linarith
  refine ⟨up, ?_⟩
  have hvR : v * (R - 1) ≤ s * (R - 1) := mul_le_mul_of_nonneg_right hvs (by linarith)
  have hRs : 18 * (R * s) ≤ U * s := by have := mul_le_mul_of_nonneg_right hU hs.le; linarith
  have hvU : v * U ≤ s * U := mul_le_mul_of_nonneg_right hvs hU0.le
  have hvU0 : 0 ≤ v * U := mul_nonneg hv hU0.le
  have hR1 : s * (R - 1) = R * s - s := by ring
  rw [abs_le]
  constructor
  · refine le_of_mul_le_mul_right (a := U) ?_ hU0
    linarith
  · refine le_of_mul_le_mul_right (a := U) ?_ hU0
    linarith

/-- how to compute a rounding -/
theorem rnd_to {p : ℕ} (q : ℚ) (e k : ℤ) (h1 : 2 ^ e ≤ q) (h2 : q < 2 ^ (e + 1)) (h3 : (k : ℚ) - 1 / 2 < q / 2 ^ (e - p + 1))
    (h4 : q / 2 ^ (e - p + 1) < k + 1 / 2) : rnd p q = k * 2 ^ (e - p + 1) := by
  rw [rnd_eval p q e h1 h2]
  congr 2
  have := abs_le.1 (roundEven_near (q / 2 ^ (e - p + 1)))
  have a1 : (roundEven (q / 2 ^ (e - p + 1)) : ℚ) < k + 1 := by linarith
  have a2 : (k : ℚ) - 1 < roundEven (q / 2 ^ (e - p + 1)) := by linarith
  have a1' : roundEven (q / 2 ^ (e - p + 1)) < k + 1 := by exact_mod_cast a1
  have a2' : k - 1 < roundEven (q / 2 ^ (e - p + 1)) := by exact_mod_cast a2
  omega

end Verif.Proofs.PackedUnit
