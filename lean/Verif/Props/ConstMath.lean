import Verif.Proofs.ConstAsin
import Mathlib.Analysis.Real.Pi.Bounds

/-!
# Mathematical functions in constant expressions

The reference is the mathematical function itself, from Mathlib: `⌊x⌋`, `⌈x⌉`, `√x`, `Real.cos`, `Real.sin`, `Real.tan`,
`Real.arcsin`, `Real.arccos`, `Real.arctan`, and `Complex.arg` for the angle of a point.  The model computes with real
numbers, so that the bounds are on the error of the algorithms; rounding comes on top.
-/

namespace Verif.Props.ConstMath

open Verif.Model.ConstMath Verif.Proofs.ConstMath

local notation "pi" => Real.pi

/-! ## C116: floor and ceil -/

/-- C116 (partial): `floor` is the greatest integer below, for values that fit the widest integer type.  Missing: the others. -/
theorem C116_floor_partial (x : ℝ) (h1 : -2 ^ 63 ≤ x) (h2 : x < 2 ^ 63) : floorNaive x = some (⌊x⌋ : ℝ) :=
  (floorNaive_iff x).mpr ⟨h1, h2⟩

/-- C116 (partial): `ceil` is the least integer above, for values that fit the widest integer type.  Missing: the others. -/
theorem C116_ceil_partial (x : ℝ) (h1 : -2 ^ 63 - 1 < x) (h2 : x ≤ 2 ^ 63 - 1) : ceilNaive x = some (⌈x⌉ : ℝ) :=
  (ceilNaive_iff x).mpr ⟨h1, h2⟩

/-- C116 is violated for all other values, although `float` and `double` have such values. -/
theorem C116_violated (x : ℝ) : (x < -2 ^ 63 ∨ 2 ^ 63 ≤ x → floorNaive x ≠ some (⌊x⌋ : ℝ)) ∧
    (x ≤ -2 ^ 63 - 1 ∨ 2 ^ 63 - 1 < x → ceilNaive x ≠ some (⌈x⌉ : ℝ)) := by
  constructor
  · rintro h h2
    obtain ⟨a, b⟩ := (floorNaive_iff x).mp h2
    rcases h with h | h <;> linarith
  · rintro h h2
    obtain ⟨a, b⟩ := (ceilNaive_iff x).mp h2
    rcases h with h | h <;> linarith

example : floorNaive (-5 / 2) = some (-3) := by
  rw [C116_floor_partial _ (by norm_num) (by norm_num)]
  norm_num [show ⌊(-5 / 2 : ℝ)⌋ = -3 by rw [Int.floor_eq_iff]; norm_num]

example : ceilNaive (5 / 2) = some 3 := by
  rw [C116_ceil_partial _ (by norm_num) (by norm_num)]
  norm_num [show ⌈(5 / 2 : ℝ)⌉ = 3 by rw [Int.ceil_eq_iff]; norm_num]

example : floorNaive (2 ^ 70) ≠ some ((⌊(2 ^ 70 : ℝ)⌋ : ℤ) : ℝ) := (C116_violated _).1 (Or.inr (by norm_num))

/-! ## C117: square roots -/

/-- C117 (partial): the square root is right to one part in `2¹²⁷` for every positive `float`, and for every `double` in
this range.  Missing: larger and smaller values. -/
theorem C117_sqrt_partial (x : ℝ) (h1 : 1 / 2 ^ 186 ≤ x) (h2 : x ≤ 2 ^ 186) :
    ∃ r, sqrtNaive maxIterations x = some r ∧ √x ≤ r ∧ r ≤ √x * (1 + 1 / 2 ^ 127) := by
  have e : (4 : ℝ) ^ (92 + 1) = 2 ^ 186 := by norm_num
  obtain ⟨r, hr, h3, h4⟩ := sqrtNaive_rel 92 7 x (by rw [e]; exact h1) (by rw [e]; exact h2)
  refine ⟨r, hr, h3, h4.trans ?_⟩
  have e2 : (2 : ℝ) / 2 ^ 2 ^ 7 = 1 / 2 ^ 127 := by norm_num
  rw [e2]

/-- C117: zero and one are exact, and the root of a negative number does not compile. -/
theorem C117_special (n : ℕ) : sqrtNaive n 0 = some 0 ∧ sqrtNaive n 1 = some 1 ∧ ∀ x < 0, sqrtNaive n x = none := by
  refine ⟨by simp [sqrtNaive], ?_, fun x hx => ?_⟩
  · rw [sqrtNaive, if_neg (by norm_num), if_neg (by norm_num), if_pos rfl]
  · rw [sqrtNaive, if_neg hx.ne, if_pos hx]

/-- C117 is violated by large numbers: the iteration is cut off long before it gets near the root. -/
theorem C117_large_violated (x : ℝ) (h : 2 ^ 300 ≤ x) : ∃ r, sqrtNaive maxIterations x = some r ∧ 2 ^ 50 * √x ≤ r := by
  obtain ⟨r, hr, h1⟩ := sqrtNaive_large maxIterations x (lt_of_lt_of_le (one_lt_pow₀ (by norm_num) (by norm_num)) h)
  refine ⟨r, hr, le_trans ?_ h1⟩
  have hx : 0 ≤ x := le_trans (by positivity) h
  have hs : 2 ^ 150 ≤ √x := by
    rw [show (2 : ℝ) ^ 150 = √(2 ^ 300) by rw [show (2 : ℝ) ^ 300 = (2 ^ 150) ^ 2 by rw [← pow_mul], Real.sqrt_sq (by positivity)]]
    exact Real.sqrt_le_sqrt h
  have h0 := Real.sqrt_nonneg x
  have hsq := Real.sq_sqrt hx
  rw [le_div_iff₀ (by positivity), maxIterations]
  have e : (2 : ℝ) ^ 150 = 2 ^ 50 * 2 ^ 100 := by rw [← pow_add]
  calc 2 ^ 50 * √x * 2 ^ 100 = 2 ^ 150 * √x := by rw [e]; ring
    _ ≤ √x * √x := mul_le_mul_of_nonneg_right hs h0
    _ = x := by rw [← sq, hsq]

/-- C117 is violated by small numbers. -/
theorem C117_small_violated (x : ℝ) (h0 : 0 < x) (h : x ≤ 1 / 2 ^ 300) :
    ∃ r, sqrtNaive maxIterations x = some r ∧ 2 ^ 50 * √x ≤ r := by
  obtain ⟨r, hr, h1⟩ := sqrtNaive_small 99 x h0
    (lt_of_le_of_lt h ((div_lt_one (by positivity)).mpr (one_lt_pow₀ (by norm_num) (by norm_num))))
  refine ⟨r, hr, le_trans ?_ h1⟩
  have hs : √x ≤ 1 / 2 ^ 150 := by
    rw [Real.sqrt_le_left (by positivity)]
    refine h.trans (le_of_eq ?_)
    rw [div_pow, one_pow, ← pow_mul]
  calc 2 ^ 50 * √x ≤ 2 ^ 50 * (1 / 2 ^ 150) := mul_le_mul_of_nonneg_left hs (by positivity)
    _ ≤ _ := by norm_num

example : ∃ r, sqrtNaive maxIterations 2 = some r ∧ √2 ≤ r ∧ r ≤ √2 * (1 + 1 / 2 ^ 127) :=
  C117_sqrt_partial 2 (by norm_num) (by norm_num)

example : ∃ r, sqrtNaive maxIterations (2 ^ 1000) = some r ∧ 2 ^ 50 * √(2 ^ 1000) ≤ r :=
  C117_large_violated _ (pow_le_pow_right₀ (by norm_num) (by norm_num))

example : ∃ r, sqrtNaive maxIterations (1 / 2 ^ 1000) = some r ∧ 2 ^ 50 * √(1 / 2 ^ 1000) ≤ r :=
  C117_small_violated _ (by positivity)
    (one_div_le_one_div_of_le (by positivity) (pow_le_pow_right₀ (by norm_num) (by norm_num)))

/-! ## C118: cosine and sine -/

theorem small_100 : small 100 ≤ 1 / 10 ^ 370 := by
  rw [small]
  apply one_div_le_one_div_of_le (by positivity)
  have : 10 ^ 370 ≤ Nat.factorial (2 * 100) := by decide +kernel
  exact_mod_cast this

theorem turn_100 : turn 100 ≤ 1 / 10 ^ 200 := by
  rw [turn, div_le_div_iff₀ (by positivity) (by positivity)]
  have h7 : (2 * pi) ^ (2 * 100 + 1) ≤ 7 ^ 201 := pow_le_pow_left₀ (by have := Real.pi_pos; positivity) (by linarith [Real.pi_lt_d2]) _
  have h : 7 ^ 201 * 10 ^ 200 ≤ 1 * Nat.factorial (2 * 100 + 1) := by decide +kernel
  calc (2 * pi) ^ (2 * 100 + 1) * 10 ^ 200 ≤ 7 ^ 201 * 10 ^ 200 := mul_le_mul_of_nonneg_right h7 (by positivity)
    _ ≤ 1 * ((Nat.factorial (2 * 100 + 1) : ℕ) : ℝ) := by exact_mod_cast h

/-- C118: the cosine of any angle up to about `5·10¹⁹` is right to `10⁻³⁷⁰`, with at most three levels of recursion. -/
theorem C118_cos (depth : ℕ) (hd : 3 ≤ depth) (x : ℝ) (h1 : -2 ^ 63 * (2 * pi) ≤ x) (h2 : x < 2 ^ 63 * (2 * pi)) :
    ∃ r, cosNaive maxIterations depth x = some r ∧ |r - Real.cos x| ≤ 1 / 10 ^ 370 := by
  obtain ⟨d, rfl⟩ : ∃ d, depth = d + 3 := ⟨depth - 3, by omega⟩
  exact (cos_all 100 (by norm_num) d x h1 h2).mono small_100

/-- C118: the sine of any such angle is right to `10⁻³⁷⁰`, and that of a full turn to `10⁻²⁰⁰`. -/
theorem C118_sin (depth : ℕ) (hd : 3 ≤ depth) (x : ℝ) (h1 : -2 ^ 63 * (2 * pi) ≤ x) (h2 : x < 2 ^ 63 * (2 * pi)) :
    ∃ r, sinNaive maxIterations depth x = some r ∧ |r - Real.sin x| ≤ if x = 2 * pi then 1 / 10 ^ 200 else 1 / 10 ^ 370 := by
  obtain ⟨d, rfl⟩ : ∃ d, depth = d + 3 := ⟨depth - 3, by omega⟩
  refine (sin_all 100 (by norm_num) d x h1 h2).mono ?_
  split_ifs
  · exact turn_100
  · exact small_100

/-- C118: at the multiples of a quarter turn the results are exact. -/
theorem C118_exact (n depth : ℕ) :
    cosNaive n (depth + 1) 0 = some 1 ∧ cosNaive n (depth + 1) (pi / 2) = some 0 ∧ cosNaive n (depth + 1) pi = some (-1) ∧
    sinNaive n (depth + 1) 0 = some 0 ∧ sinNaive n (depth + 1) (pi / 2) = some 1 ∧ sinNaive n (depth + 1) pi = some 0 := by
  have hp := Real.pi_pos
  refine ⟨?_, ?_, ?_, ?_, ?_, ?_⟩
  · rw [cosNaive, reduce_id _ _ le_rfl (by linarith), Option.bind_some, if_pos (Or.inl rfl)]
  · rw [cosNaive, reduce_id _ _ (by linarith) (by linarith), Option.bind_some, if_neg (by rintro (h | h) <;> linarith),
      if_pos (Or.inl rfl)]
  · rw [cosNaive, reduce_id _ _ (by linarith) (by linarith), Option.bind_some, if_neg (by rintro (h | h) <;> linarith),
      if_neg (by rintro (h | h) <;> linarith), if_pos rfl]
  · rw [sinNaive, if_pos rfl]
  · rw [sinNaive, if_neg (by linarith), reduce_id _ _ (by linarith) (by linarith), Option.bind_some, if_neg (by linarith), if_pos rfl]
  · rw [sinNaive, if_neg (by linarith), reduce_id _ _ (by linarith) (by linarith), Option.bind_some, if_pos rfl]

example : ∃ r, cosNaive maxIterations 3 1000 = some r ∧ |r - Real.cos 1000| ≤ 1 / 10 ^ 370 :=
  C118_cos 3 le_rfl 1000 (by linarith [Real.two_le_pi]) (by linarith [Real.two_le_pi])

example : ∃ r, sinNaive maxIterations 3 (-1) = some r ∧ |r - Real.sin (-1)| ≤ 1 / 10 ^ 370 := by
  have := C118_sin 3 le_rfl (-1) (by linarith [Real.two_le_pi]) (by linarith [Real.two_le_pi])
  rwa [if_neg (by linarith [Real.two_le_pi])] at this

/-! ## C119: tangent -/

/-- C119: wherever the tangent is defined, up to about `2.9·10¹⁹`, it is right to one part in `10³⁶⁸`. -/
theorem C119_tan (depth : ℕ) (hd : 5 ≤ depth) (x : ℝ) (h1 : -2 ^ 63 * pi ≤ x) (h2 : x < 2 ^ 63 * pi) (hc : Real.cos x ≠ 0) :
    ∃ r, tanNaive maxIterations depth x = some r ∧ |r - Real.tan x| ≤ |Real.tan x| / 10 ^ 368 := by
  obtain ⟨d, rfl⟩ : ∃ d, depth = d + 5 := ⟨depth - 5, by omega⟩
  obtain ⟨e, he, hr⟩ := tan_all 100 (by norm_num) d x h1 h2 hc
  refine ⟨_, hr, ?_⟩
  rw [show Real.tan x * (1 + e) - Real.tan x = Real.tan x * e by ring, abs_mul, div_eq_mul_one_div]
  refine mul_le_mul_of_nonneg_left (he.trans ?_) (abs_nonneg _)
  have := small_100
  have e2 : (1 : ℝ) / 10 ^ 370 = 1 / 10 ^ 368 / 100 := by
    rw [div_div, show (100 : ℝ) = 10 ^ 2 by norm_num, ← pow_add]
  have hp : (0 : ℝ) < 1 / 10 ^ 368 := by positivity
  linarith

/-- C119: where it is not defined, the program does not compile. -/
theorem C119_undefined (depth : ℕ) (hd : 2 ≤ depth) (x : ℝ) (h1 : -2 ^ 63 * pi ≤ x) (h2 : x < 2 ^ 63 * pi)
    (hc : Real.cos x = 0) : tanNaive maxIterations depth x = none := by
  obtain ⟨d, rfl⟩ : ∃ d, depth = d + 2 := ⟨depth - 2, by omega⟩
  exact tan_none 100 d x h1 h2 hc

example : ∃ r, tanNaive maxIterations 5 1 = some r ∧ |r - Real.tan 1| ≤ |Real.tan 1| / 10 ^ 368 :=
  C119_tan 5 le_rfl 1 (by linarith [Real.two_le_pi]) (by linarith [Real.two_le_pi]) Real.cos_one_pos.ne'

example : tanNaive maxIterations 5 (pi / 2) = none :=
  C119_undefined 5 (by norm_num) _ (by linarith [Real.two_le_pi]) (by linarith [Real.two_le_pi]) Real.cos_pi_div_two

/-! ## C120: arc sine and arc cosine -/

theorem three_100 : (3 : ℝ) / 2 ^ (99 + 1) ≤ 1 / 2 ^ 98 := by norm_num

/-- C120 (partial): the arc sine is right to `2⁻⁹⁸`.  Missing: arguments just above `1/√2`, or just below `-1/√2`, whose
square is within `2⁻⁹⁹` of `1/2`; `float` and `double` have none. -/
theorem C120_asin_partial (depth : ℕ) (hd : 2 ≤ depth) (x : ℝ) (h1 : -1 ≤ x) (h2 : x ≤ 1)
    (h : x ^ 2 ≤ 1 / 2 ∨ 1 / 2 + 1 / 2 ^ 99 ≤ x ^ 2) :
    ∃ r, asinNaive maxIterations depth x = some r ∧ |r - Real.arcsin x| ≤ 1 / 2 ^ 98 := by
  obtain ⟨d, rfl⟩ : ∃ d, depth = d + 2 := ⟨depth - 2, by omega⟩
  have e : (2 : ℝ) / 2 ^ (99 + 1) = 1 / 2 ^ 99 := by norm_num
  exact (asin_all 99 d x h1 h2 (by rw [e]; exact h)).mono three_100

/-- C120 (partial): the arc cosine is right to `2⁻⁹⁸`.  Missing: the same arguments. -/
theorem C120_acos_partial (depth : ℕ) (hd : 2 ≤ depth) (x : ℝ) (h1 : -1 ≤ x) (h2 : x ≤ 1)
    (h : x ^ 2 ≤ 1 / 2 ∨ 1 / 2 + 1 / 2 ^ 99 ≤ x ^ 2) :
    ∃ r, acosNaive maxIterations depth x = some r ∧ |r - Real.arccos x| ≤ 1 / 2 ^ 98 := by
  obtain ⟨d, rfl⟩ : ∃ d, depth = d + 2 := ⟨depth - 2, by omega⟩
  have e : (2 : ℝ) / 2 ^ (99 + 1) = 1 / 2 ^ 99 := by norm_num
  exact (acos_all 99 d x h1 h2 (by rw [e]; exact h)).mono three_100

/-- C120: outside `[-1, 1]` neither compiles. -/
theorem C120_domain (n depth : ℕ) (x : ℝ) (h : x < -1 ∨ 1 < x) : asinNaive n depth x = none ∧ acosNaive n depth x = none := by
  constructor
  · cases depth with
    | zero => rfl
    | succ d => rw [asinNaive, if_neg (by rintro rfl; rcases h with h | h <;> linarith), if_pos h]
  · rw [acosNaive, if_pos h]

/-- No `double` is one of the missing arguments. -/
theorem not_double (m : ℤ) (e : ℕ) (hm : |m| ≤ 2 ^ 53) :
    ((m : ℝ) / 2 ^ e) ^ 2 ≤ 1 / 2 ∨ 1 / 2 + 1 / 2 ^ 99 ≤ ((m : ℝ) / 2 ^ e) ^ 2 := by
  by_cases he : 54 ≤ e
  · left
    have h1 : |(m : ℝ)| ≤ 2 ^ 53 := by exact_mod_cast hm
    have h2 : (2 : ℝ) ^ 54 ≤ 2 ^ e := pow_le_pow_right₀ (by norm_num) he
    rw [div_pow, ← sq_abs (m : ℝ), ← div_pow]
    have h3 : |(m : ℝ)| / 2 ^ e ≤ 1 / 2 := by
      rw [div_le_iff₀ (by positivity)]
      nlinarith
    have h4 : 0 ≤ |(m : ℝ)| / 2 ^ e := by positivity
    nlinarith
  · push Not at he
    obtain ⟨k, hk⟩ : ∃ k : ℤ, (m : ℝ) / 2 ^ e = k / 2 ^ 53 := by
      refine ⟨m * 2 ^ (53 - e), ?_⟩
      rw [div_eq_div_iff (by positivity) (by positivity)]
      push_cast
      rw [mul_assoc, ← pow_add, show 53 - e + e = 53 by omega]
    rw [hk, div_pow, ← sq_abs (k : ℝ)]
    by_cases hs : |k| ≤ 6369051672525772
    · left
      have : |(k : ℝ)| ≤ 6369051672525772 := by exact_mod_cast hs
      have h2 : |(k : ℝ)| ^ 2 ≤ 6369051672525772 ^ 2 := pow_le_pow_left₀ (abs_nonneg _) this 2
      rw [div_le_iff₀ (by positivity)]
      norm_num at h2 ⊢
      linarith
    · right
      push Not at hs
      have hs' : 6369051672525773 ≤ |k| := by omega
      have : (6369051672525773 : ℝ) ≤ |(k : ℝ)| := by exact_mod_cast hs'
      have h2 : (6369051672525773 : ℝ) ^ 2 ≤ |(k : ℝ)| ^ 2 := pow_le_pow_left₀ (by norm_num) this 2
      rw [le_div_iff₀ (by positivity)]
      norm_num at h2 ⊢
      linarith

/-- C120: for every `double` in `[-1, 1]` (and so every `float`) the arc sine and arc cosine are right to `2⁻⁹⁸`. -/
theorem C120_double (depth : ℕ) (hd : 2 ≤ depth) (m : ℤ) (e : ℕ) (hm : |m| ≤ 2 ^ 53) (h1 : -1 ≤ (m : ℝ) / 2 ^ e)
    (h2 : (m : ℝ) / 2 ^ e ≤ 1) :
    (∃ r, asinNaive maxIterations depth (m / 2 ^ e) = some r ∧ |r - Real.arcsin (m / 2 ^ e)| ≤ 1 / 2 ^ 98) ∧
    ∃ r, acosNaive maxIterations depth (m / 2 ^ e) = some r ∧ |r - Real.arccos (m / 2 ^ e)| ≤ 1 / 2 ^ 98 :=
  ⟨C120_asin_partial depth hd _ h1 h2 (not_double m e hm), C120_acos_partial depth hd _ h1 h2 (not_double m e hm)⟩

example : ∃ r, asinNaive maxIterations 2 ((6369051672525773 : ℤ) / 2 ^ 53) = some r ∧
    |r - Real.arcsin ((6369051672525773 : ℤ) / 2 ^ 53)| ≤ 1 / 2 ^ 98 :=
  (C120_double 2 le_rfl _ 53 (by norm_num) (by norm_num) (by norm_num)).1

example : ∃ r, asinNaive maxIterations 2 (9 / 10) = some r ∧ |r - Real.arcsin (9 / 10)| ≤ 1 / 2 ^ 98 :=
  C120_asin_partial 2 le_rfl _ (by norm_num) (by norm_num) (Or.inr (by norm_num))

example : ∃ r, acosNaive maxIterations 2 (-1 / 10) = some r ∧ |r - Real.arccos (-1 / 10)| ≤ 1 / 2 ^ 98 :=
  C120_acos_partial 2 le_rfl _ (by norm_num) (by norm_num) (Or.inl (by norm_num))

/-! ## C121: arc tangent and the angle of a point -/

theorem atanError_100 : atanError 100 ≤ 1 / 10 ^ 113 := by
  rw [atanError, div_le_div_iff₀ (by positivity) (by positivity)]
  norm_num

/-- C121: the arc tangent is right to `10⁻¹¹³`, with at most five levels of recursion. -/
theorem C121_atan (depth : ℕ) (hd : 5 ≤ depth) (x : ℝ) :
    ∃ r, atanNaive maxIterations depth x = some r ∧ |r - Real.arctan x| ≤ 1 / 10 ^ 113 := by
  obtain ⟨d, rfl⟩ : ∃ d, depth = d + 5 := ⟨depth - 5, by omega⟩
  exact (atan_all 100 d x).mono atanError_100

/-- C121 (partial): `atan2(y, x)` is the angle of the point `(x, y)`, to `10⁻¹¹³`.  Missing: the origin. -/
theorem C121_atan2_partial (depth : ℕ) (hd : 5 ≤ depth) (y x : ℝ) (h : x ≠ 0 ∨ y ≠ 0) :
    ∃ r, atan2Naive maxIterations depth y x = some r ∧ |r - Complex.arg ⟨x, y⟩| ≤ 1 / 10 ^ 113 := by
  obtain ⟨d, rfl⟩ : ∃ d, depth = d + 5 := ⟨depth - 5, by omega⟩
  exact (atan2_all 100 d y x h).mono atanError_100

/-- C121 is violated at the origin, where `std::atan2` is zero: it does not compile. -/
theorem C121_atan2_violated (n depth : ℕ) : atan2Naive n depth 0 0 = none ∧ Complex.arg ⟨0, 0⟩ = 0 := by
  refine ⟨by simp [atan2Naive], ?_⟩
  exact Complex.arg_zero

example : ∃ r, atanNaive maxIterations 5 1000 = some r ∧ |r - Real.arctan 1000| ≤ 1 / 10 ^ 113 := C121_atan 5 le_rfl 1000

example : ∃ r, atan2Naive maxIterations 5 (-1) 0 = some r ∧ |r - Complex.arg ⟨0, -1⟩| ≤ 1 / 10 ^ 113 :=
  C121_atan2_partial 5 le_rfl _ _ (Or.inr (by norm_num))

/-! ## C122: normalizing angles -/

/-- C122: in exact arithmetic `normalize_angle` gives the one angle in `[0, 2π)` that is the same direction. -/
theorem C122_normalize (floor : ℝ → Option ℝ) (hf : ∀ v, floor v = some (⌊v⌋ : ℝ)) (x : ℝ) :
    ∃ r, normalizeAngle floor x = some r ∧ 0 ≤ r ∧ r < 2 * pi ∧ ∃ k : ℤ, r = x + k * (2 * pi) := by
  have hp : (0 : ℝ) < 2 * pi := by have := Real.pi_pos; positivity
  rw [normalizeAngle]
  split_ifs with h
  · rw [hf, show x * (1 / (2 * pi)) = x / (2 * pi) by ring]
    refine ⟨_, rfl, ?_, ?_, -⌊x / (2 * pi)⌋, by push_cast; ring⟩
    · have := (le_div_iff₀ hp).mp (Int.floor_le (x / (2 * pi))); linarith
    · have := (div_lt_iff₀ hp).mp (Int.lt_floor_add_one (x / (2 * pi))); linarith
  · push Not at h
    exact ⟨x, rfl, h.1, h.2, 0, by simp⟩

/-- C122: in exact arithmetic `normalize_angle_signed` gives the one angle in `[-π, π)` that is the same direction. -/
theorem C122_normalize_signed (floor : ℝ → Option ℝ) (hf : ∀ v, floor v = some (⌊v⌋ : ℝ)) (x : ℝ) :
    ∃ r, normalizeAngleSigned floor x = some r ∧ -pi ≤ r ∧ r < pi ∧ ∃ k : ℤ, r = x + k * (2 * pi) := by
  have hp : (0 : ℝ) < 2 * pi := by have := Real.pi_pos; positivity
  rw [normalizeAngleSigned]
  split_ifs with h
  · simp only
    rw [hf, show (x + pi) * (1 / (2 * pi)) = (x + pi) / (2 * pi) by ring]
    refine ⟨_, rfl, ?_, ?_, -⌊(x + pi) / (2 * pi)⌋, by push_cast; ring⟩
    · have := (le_div_iff₀ hp).mp (Int.floor_le ((x + pi) / (2 * pi))); linarith
    · have := (div_lt_iff₀ hp).mp (Int.lt_floor_add_one ((x + pi) / (2 * pi))); linarith
  · push Not at h
    exact ⟨x, rfl, h.1, h.2, 0, by simp⟩

/-- C122: there is only one such angle, whatever the range starts with. -/
theorem C122_unique (a r s : ℝ) (hr : a ≤ r ∧ r < a + 2 * pi) (hs : a ≤ s ∧ s < a + 2 * pi)
    (h : ∃ k : ℤ, r = s + k * (2 * pi)) : r = s := by
  obtain ⟨k, hk⟩ := h
  have hp : (0 : ℝ) < 2 * pi := by have := Real.pi_pos; positivity
  have h1 : (k : ℝ) * (2 * pi) < 1 * (2 * pi) := by linarith
  have h2 : (-1 : ℝ) * (2 * pi) < k * (2 * pi) := by linarith
  have k1 : k < 1 := by exact_mod_cast lt_of_mul_lt_mul_right h1 hp.le
  have k2 : -1 < k := by exact_mod_cast lt_of_mul_lt_mul_right h2 hp.le
  have : k = 0 := by omega
  rw [hk, this]; simp

example : ∃ r, normalizeAngle (fun v => some (⌊v⌋ : ℝ)) (-1) = some r ∧ 0 ≤ r ∧ r < 2 * pi ∧ ∃ k : ℤ, r = -1 + k * (2 * pi) :=
  C122_normalize _ (fun _ => rfl) _

example : ∃ r, normalizeAngleSigned (fun v => some (⌊v⌋ : ℝ)) 100 = some r ∧ -pi ≤ r ∧ r < pi ∧ ∃ k : ℤ, r = 100 + k * (2 * pi) :=
  C122_normalize_signed _ (fun _ => rfl) _

end Verif.Props.ConstMath
