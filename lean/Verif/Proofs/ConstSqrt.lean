import Verif.Model.ConstMath
import Mathlib.Tactic

/-!
# Lemmas about `floor`, `ceil` and `sqrt` in constant expressions
-/

namespace Verif.Proofs.ConstMath

open Verif.Model.ConstMath

/-! ## Floor and ceiling -/

theorem intmax_of {z : ℤ} (h1 : -2 ^ 63 ≤ z) (h2 : z < 2 ^ 63) : intmax z = some z := by
  rw [intmax, if_pos ⟨h1, h2⟩]

theorem floorNaive_iff (x : ℝ) : floorNaive x = some ((⌊x⌋ : ℤ) : ℝ) ↔ -2 ^ 63 ≤ x ∧ x < 2 ^ 63 := by
  by_cases h0 : x = 0
  · subst h0
    simp [floorNaive]
  rw [floorNaive, if_neg h0, toIntmax]
  by_cases hx : 0 ≤ x
  · rw [if_pos hx]
    have hf : (0 : ℤ) ≤ ⌊x⌋ := Int.floor_nonneg.mpr hx
    have hn : ¬x < ((⌊x⌋ : ℤ) : ℝ) := not_lt.mpr (Int.floor_le x)
    by_cases h : x < 2 ^ 63
    · have h2 : ⌊x⌋ < 2 ^ 63 := by
        rw [Int.floor_lt]; norm_num at h ⊢; linarith
      rw [intmax_of (by omega) h2]
      simp only [Option.bind_some, if_neg hn, sub_zero]
      rw [intmax_of (by omega) h2]
      refine iff_of_true rfl ?_
      exact ⟨by linarith [pow_pos (show (0 : ℝ) < 2 by norm_num) 63], h⟩
    · have h2 : ¬⌊x⌋ < 2 ^ 63 := by
        rw [Int.floor_lt]; norm_num at h ⊢; linarith
      rw [intmax, if_neg (by omega)]
      simp only [Option.bind_none, reduceCtorEq, false_iff]
      exact fun hc => h hc.2
  · rw [if_neg hx]
    push Not at hx
    have hc : ⌈x⌉ ≤ 0 := Int.ceil_le.mpr (by push_cast; exact hx.le)
    have key : ⌈x⌉ - (if x < ((⌈x⌉ : ℤ) : ℝ) then 1 else 0) = ⌊x⌋ := by
      split_ifs with h
      · have := Int.ceil_le_floor_add_one x
        have h3 : ⌊x⌋ < ⌈x⌉ := by
          rw [Int.floor_lt]; exact h
        omega
      · have e : x = ((⌈x⌉ : ℤ) : ℝ) := le_antisymm (Int.le_ceil x) (not_lt.mp h)
        have : ⌊x⌋ = ⌈x⌉ := by
          rw [e]; simp
        omega
    have lt : x < 2 ^ 63 := by linarith [pow_pos (show (0 : ℝ) < 2 by norm_num) 63]
    by_cases h : -2 ^ 63 ≤ x
    · have h1 : -2 ^ 63 ≤ ⌊x⌋ := by
        rw [Int.le_floor]; norm_num at h ⊢; linarith
      have h2 : ⌊x⌋ ≤ ⌈x⌉ := Int.floor_le_ceil x
      rw [intmax_of (by omega) (by omega)]
      simp only [Option.bind_some]
      rw [key, intmax_of h1 (by omega)]
      simp [h, lt]
    · constructor
      · intro he
        exfalso
        have h1 : ¬-2 ^ 63 ≤ ⌊x⌋ := by
          rw [Int.le_floor]; norm_num at h ⊢; linarith
        unfold intmax at he
        split_ifs at he with h3
        · simp only [Option.bind_some] at he
          rw [key, if_neg (fun hc => h1 hc.1)] at he
          simp at he
        · simp at he
      · intro hc
        exact absurd hc.1 h

theorem ceilNaive_iff (x : ℝ) : ceilNaive x = some ((⌈x⌉ : ℤ) : ℝ) ↔ -2 ^ 63 - 1 < x ∧ x ≤ 2 ^ 63 - 1 := by
  by_cases h0 : x = 0
  · subst h0
    simp [ceilNaive]
    norm_num
  rw [ceilNaive, if_neg h0, toIntmax]
  by_cases hx : 0 ≤ x
  · rw [if_pos hx]
    have hf : (0 : ℤ) ≤ ⌊x⌋ := Int.floor_nonneg.mpr hx
    have lo : -2 ^ 63 - 1 < x := by linarith [pow_pos (show (0 : ℝ) < 2 by norm_num) 63]
    have key : ⌊x⌋ + (if x > ((⌊x⌋ : ℤ) : ℝ) then 1 else 0) = ⌈x⌉ := by
      split_ifs with h
      · have := Int.ceil_le_floor_add_one x
        have h3 : ⌊x⌋ < ⌈x⌉ := by
          rw [Int.lt_ceil]; exact h
        omega
      · have e : x = ((⌊x⌋ : ℤ) : ℝ) := le_antisymm (not_lt.mp h) (Int.floor_le x)
        have : ⌈x⌉ = ⌊x⌋ := by
          rw [e]; simp
        omega
    have hle : ⌊x⌋ ≤ ⌈x⌉ := Int.floor_le_ceil x
    by_cases h : x ≤ 2 ^ 63 - 1
    · have h2 : ⌈x⌉ ≤ 2 ^ 63 - 1 := by
        rw [Int.ceil_le]; norm_num at h ⊢; linarith
      rw [intmax_of (by omega) (by omega)]
      simp only [Option.bind_some]
      rw [key, intmax_of (by omega) (by omega)]
      simp [h, lo]
    · have h2 : ¬⌈x⌉ ≤ 2 ^ 63 - 1 := by
        rw [Int.ceil_le]; norm_num at h ⊢; linarith
      constructor
      · intro he
        exfalso
        unfold intmax at he
        split_ifs at he with h3
        · simp only [Option.bind_some] at he
          rw [key, if_neg (by omega)] at he
          simp at he
        · simp at he
      · intro hc
        exact absurd hc.2 h
  · rw [if_neg hx]
    push Not at hx
    have hc : ⌈x⌉ ≤ 0 := Int.ceil_le.mpr (by push_cast; exact hx.le)
    have hn : ¬x > ((⌈x⌉ : ℤ) : ℝ) := not_lt.mpr (Int.le_ceil x)
    have hi : x ≤ 2 ^ 63 - 1 := by
      have : (1 : ℝ) ≤ 2 ^ 63 := by norm_num
      linarith
    by_cases h : -2 ^ 63 - 1 < x
    · have h1 : -2 ^ 63 - 1 < ⌈x⌉ := by
        rw [Int.lt_ceil]; norm_num at h ⊢; linarith
      rw [intmax_of (by omega) (by omega)]
      simp only [Option.bind_some, if_neg hn, add_zero]
      rw [intmax_of (by omega) (by omega)]
      simp [h, hi]
    · have h1 : ¬-2 ^ 63 - 1 < ⌈x⌉ := by
        rw [Int.lt_ceil]; norm_num at h ⊢; linarith
      rw [intmax, if_neg (by omega)]
      simp only [Option.bind_none, reduceCtorEq, false_iff]
      exact fun hc => h hc.1

/-! ## Square root -/

/-- One step of Newton's method. -/
noncomputable def newton (x c : ℝ) : ℝ := 1 / 2 * (c + x / c)

theorem sqrtLoop_eq (x : ℝ) (n : ℕ) (c p : ℝ) (h : c ≠ p ∨ newton x c = c) : sqrtLoop x n c p = (newton x)^[n] c := by
  induction n generalizing c p with
  | zero => rfl
  | succ n ih =>
    rw [sqrtLoop]
    by_cases hc : c = p
    · rw [if_neg (by simpa using hc)]
      have e : newton x c = c := h.resolve_left (not_not.mpr hc)
      exact (Function.iterate_fixed e (n + 1)).symm
    · rw [if_pos hc, Function.iterate_succ_apply]
      refine ih (newton x c) c ?_
      by_cases e : newton x c = c
      · exact Or.inr (by rw [e, e])
      · exact Or.inl e

theorem newton_sub (x c : ℝ) (hx : 0 ≤ x) (hc : 0 < c) : newton x c - √x = (c - √x) ^ 2 / (2 * c) := by
  have h := Real.sq_sqrt hx
  generalize √x = s at h ⊢
  rw [newton, ← h]
  field_simp
  ring

theorem newton_ge (x c : ℝ) (hx : 0 ≤ x) (hc : 0 < c) : √x ≤ newton x c := by
  have h := newton_sub x c hx hc
  have : 0 ≤ (c - √x) ^ 2 / (2 * c) := by positivity
  linarith

theorem newton_half (x c : ℝ) (hx : 0 ≤ x) (hc : 0 < c) : c / 2 ≤ newton x c := by
  rw [newton]
  have : 0 ≤ x / c := by positivity
  linarith

theorem iter_pos (x : ℝ) (n : ℕ) (c : ℝ) (hx : 0 ≤ x) (hc : 0 < c) : 0 < (newton x)^[n] c := by
  induction n with
  | zero => exact hc
  | succ n ih =>
    rw [Function.iterate_succ_apply']
    have := newton_half x _ hx ih
    linarith

theorem iter_low (x : ℝ) (n : ℕ) (c : ℝ) (hx : 0 ≤ x) (hc : 0 < c) : c / 2 ^ n ≤ (newton x)^[n] c := by
  induction n with
  | zero => simp
  | succ n ih =>
    rw [Function.iterate_succ_apply']
    have h := newton_half x _ hx (iter_pos x n c hx hc)
    have e : c / 2 ^ (n + 1) = c / 2 ^ n / 2 := by rw [pow_succ, div_div]
    rw [e]
    linarith

theorem iter_ge (x : ℝ) (n : ℕ) (c : ℝ) (hx : 0 ≤ x) (hc : 0 < c) (h : √x ≤ c) : √x ≤ (newton x)^[n] c := by
  induction n with
  | zero => exact h
  | succ n ih =>
    rw [Function.iterate_succ_apply']
    exact newton_ge x _ hx (iter_pos x n c hx hc)

/-- The absolute error halves. -/
theorem iter_abs (x : ℝ) (n : ℕ) (c : ℝ) (hx : 0 ≤ x) (hc : 0 < c) (h : √x ≤ c) :
    (newton x)^[n] c - √x ≤ (c - √x) / 2 ^ n := by
  induction n with
  | zero => simp
  | succ n ih =>
    rw [Function.iterate_succ_apply', newton_sub x _ hx (iter_pos x n c hx hc)]
    have h1 := iter_ge x n c hx hc h
    have hp := iter_pos x n c hx hc
    generalize (newton x)^[n] c = d at *
    have hs := Real.sqrt_nonneg x
    have e : (c - √x) / 2 ^ (n + 1) = (c - √x) / 2 ^ n / 2 := by rw [pow_succ, div_div]
    rw [e, div_le_iff₀ (by linarith)]
    nlinarith

/-- Far from the root the relative error halves; near it, it is squared and halved. -/
theorem newton_rel (x c δ : ℝ) (hx : 0 < x) (h : √x ≤ c) (hd : c ≤ √x * (1 + δ)) :
    newton x c ≤ √x * (1 + δ / 2) ∧ newton x c ≤ √x * (1 + δ ^ 2 / 2) := by
  have hs : 0 < √x := Real.sqrt_pos.mpr hx
  have hc : 0 < c := lt_of_lt_of_le hs h
  have e := newton_sub x c hx.le hc
  generalize √x = s at *
  obtain ⟨t, rfl⟩ : ∃ t, c = s * (1 + t) := ⟨c / s - 1, by field_simp; ring⟩
  have ht0 : 0 ≤ t := by nlinarith
  have ht : t ≤ δ := by nlinarith
  have e2 : newton x (s * (1 + t)) = s * (1 + t ^ 2 / (2 * (1 + t))) := by
    have : newton x (s * (1 + t)) = s + (s * (1 + t) - s) ^ 2 / (2 * (s * (1 + t))) := by linarith
    rw [this]
    field_simp
    ring
  have h1 : t ^ 2 / (2 * (1 + t)) ≤ δ / 2 := by
    rw [div_le_div_iff₀ (by linarith) (by norm_num)]
    nlinarith
  have h2 : t ^ 2 / (2 * (1 + t)) ≤ δ ^ 2 / 2 := by
    rw [div_le_div_iff₀ (by linarith) (by norm_num)]
    nlinarith [mul_nonneg ht0 (sq_nonneg δ)]
  rw [e2]
  exact ⟨by nlinarith, by nlinarith⟩

theorem iter_halving (x c : ℝ) (hx : 0 < x) (h : √x ≤ c) (a n : ℕ) (hn : n ≤ a) (hd : c ≤ √x * (1 + 2 ^ a)) :
    (newton x)^[n] c ≤ √x * (1 + 2 ^ (a - n)) := by
  have hc : 0 < c := lt_of_lt_of_le (Real.sqrt_pos.mpr hx) h
  induction n with
  | zero => simpa using hd
  | succ n ih =>
    rw [Function.iterate_succ_apply']
    have h1 := (newton_rel x _ _ hx (iter_ge x n c hx.le hc h) (ih (by omega))).1
    have e : (2 : ℝ) ^ (a - n) / 2 = 2 ^ (a - (n + 1)) := by
      have : a - n = a - (n + 1) + 1 := by omega
      rw [this, pow_succ]; ring
    rwa [e] at h1

theorem iter_squaring (x c : ℝ) (hx : 0 < x) (h : √x ≤ c) (n : ℕ) (hd : c ≤ √x * (1 + 1)) :
    (newton x)^[n] c ≤ √x * (1 + 2 / 2 ^ 2 ^ n) := by
  have hc : 0 < c := lt_of_lt_of_le (Real.sqrt_pos.mpr hx) h
  induction n with
  | zero => simpa using hd
  | succ n ih =>
    rw [Function.iterate_succ_apply']
    have h1 := (newton_rel x _ _ hx (iter_ge x n c hx.le hc h) ih).2
    have e : (2 / 2 ^ 2 ^ n : ℝ) ^ 2 / 2 = 2 / 2 ^ 2 ^ (n + 1) := by
      rw [pow_succ 2 n, pow_mul, div_pow]
      ring
    rwa [e] at h1

theorem sqrtNaive_pos (n : ℕ) (x : ℝ) (hx : 0 < x) (h1 : x ≠ 1) : sqrtNaive n x = some ((newton x)^[n] x) := by
  rw [sqrtNaive, if_neg hx.ne', if_neg (not_lt.mpr hx.le), if_neg h1, sqrtLoop_eq x n x 0 (Or.inl hx.ne')]

theorem sqrtNaive_rel (a j : ℕ) (x : ℝ) (h1 : 1 / 4 ^ (a + 1) ≤ x) (h2 : x ≤ 4 ^ (a + 1)) :
    ∃ r, sqrtNaive (1 + a + j) x = some r ∧ √x ≤ r ∧ r ≤ √x * (1 + 2 / 2 ^ 2 ^ j) := by
  have hx : 0 < x := lt_of_lt_of_le (by positivity) h1
  by_cases h : x = 1
  · subst h
    refine ⟨1, by simp [sqrtNaive], by simp, ?_⟩
    have : (0 : ℝ) ≤ 2 / 2 ^ 2 ^ j := by positivity
    rw [Real.sqrt_one]
    linarith
  have e : (newton x)^[1 + a + j] x = (newton x)^[j] ((newton x)^[a] (newton x x)) := by
    rw [show 1 + a + j = j + (a + 1) by ring, Function.iterate_add_apply, Function.iterate_succ_apply]
  have hs : 0 < √x := Real.sqrt_pos.mpr hx
  have g1 := newton_ge x x hx.le hx
  have hn : 0 < newton x x := lt_of_lt_of_le hs g1
  have p1 : (0 : ℝ) < 2 ^ (a + 1) := by positivity
  have q1 : √x ≤ 2 ^ (a + 1) := by
    rw [Real.sqrt_le_left p1.le, ← pow_mul, mul_comm, pow_mul]
    norm_num
    exact h2
  have q2 : 1 / 2 ^ (a + 1) ≤ √x := by
    apply Real.le_sqrt_of_sq_le
    rw [div_pow, one_pow, ← pow_mul, mul_comm, pow_mul]
    norm_num
    simpa using h1
  have g2 : newton x x ≤ √x * (1 + 2 ^ a) := by
    have e2 : newton x x = (√x ^ 2 + 1) / 2 := by
      rw [newton, div_self hx.ne', Real.sq_sqrt hx.le]; ring
    rw [e2]
    have q3 : 1 ≤ √x * 2 ^ (a + 1) := by
      rwa [div_le_iff₀ p1] at q2
    have e3 : (2 : ℝ) ^ (a + 1) = 2 * 2 ^ a := by rw [pow_succ]; ring
    rw [e3] at q1 q3
    have pa : (1 : ℝ) ≤ 2 ^ a := one_le_pow₀ (by norm_num)
    generalize √x = s at *
    generalize (2 : ℝ) ^ a = A at *
    rcases le_total s 1 with hs1 | hs1
    · nlinarith
    · nlinarith [mul_nonneg (sub_nonneg.mpr hs1) (sub_nonneg.mpr q1)]
  have g3 := iter_halving x _ hx g1 a a le_rfl g2
  rw [Nat.sub_self, pow_zero] at g3
  have g4 := iter_ge x a _ hx.le hn g1
  refine ⟨_, sqrtNaive_pos _ x hx h, ?_, ?_⟩
  · rw [e]
    exact iter_ge x j _ hx.le (iter_pos x a _ hx.le hn) g4
  · rw [e]
    exact iter_squaring x _ hx g4 j g3

theorem sqrtNaive_abs (n : ℕ) (x : ℝ) (h1 : 0 < x) (h2 : x < 1) :
    ∃ r, sqrtNaive (n + 1) x = some r ∧ √x ≤ r ∧ r ≤ √x + 1 / 2 ^ (n + 1) := by
  refine ⟨_, sqrtNaive_pos _ x h1 h2.ne, ?_, ?_⟩
  · rw [Function.iterate_succ_apply']
    exact newton_ge x _ h1.le (iter_pos x n x h1.le h1)
  · rw [Function.iterate_succ_apply]
    have g1 := newton_ge x x h1.le h1
    have hn : 0 < newton x x := lt_of_lt_of_le (Real.sqrt_pos.mpr h1) g1
    have h := iter_abs x n _ h1.le hn g1
    have e2 : newton x x - √x ≤ 1 / 2 := by
      rw [newton, div_self h1.ne']
      have hs : x ≤ √x := Real.le_sqrt_of_sq_le (by nlinarith)
      linarith
    have e3 : (newton x x - √x) / 2 ^ n ≤ 1 / 2 / 2 ^ n := div_le_div_of_nonneg_right e2 (by positivity)
    have e4 : (1 / 2 / 2 ^ n : ℝ) = 1 / 2 ^ (n + 1) := by rw [pow_succ]; field_simp
    linarith

theorem sqrtNaive_large (n : ℕ) (x : ℝ) (h : 1 < x) : ∃ r, sqrtNaive n x = some r ∧ x / 2 ^ n ≤ r :=
  ⟨_, sqrtNaive_pos n x (by linarith) h.ne', iter_low x n x (by linarith) (by linarith)⟩

theorem sqrtNaive_small (n : ℕ) (x : ℝ) (h : 0 < x) (h1 : x < 1) : ∃ r, sqrtNaive (n + 1) x = some r ∧ 1 / 2 ^ (n + 1) ≤ r := by
  refine ⟨_, sqrtNaive_pos _ x h h1.ne, ?_⟩
  rw [Function.iterate_succ_apply]
  have e2 : 1 / 2 ≤ newton x x := by
    rw [newton, div_self h.ne']
    linarith
  have hl := iter_low x n _ h.le (show 0 < newton x x by linarith)
  have e3 : 1 / 2 / 2 ^ n ≤ newton x x / 2 ^ n := div_le_div_of_nonneg_right e2 (by positivity)
  have e4 : (1 / 2 / 2 ^ n : ℝ) = 1 / 2 ^ (n + 1) := by rw [pow_succ]; field_simp
  linarith

end Verif.Proofs.ConstMath
