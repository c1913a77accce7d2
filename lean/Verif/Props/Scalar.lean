import Verif.Proofs.Scalar

/-!
# Scalar functions

The references: what the bits of a floating-point number stand for (`Spec/Ieee.lean`), the absolute value of an integer,
the distance of two numbers, and the point `(1 - t)·a + t·b` between them.
-/

namespace Verif.Props.Scalar

open Verif.Model.Scalar Verif.Spec.Float Verif.Spec.Ieee Verif.Proofs.Scalar Verif.Proofs.Float

/-! ## C123: infinities and NaN -/

/-- C123: for `_Float16`, `float`, `double` and `float128_t`, `infinity_or_nan` is true of exactly the encodings of an
infinity or NaN. -/
theorem C123_interchange (b : ℕ) :
    (infinityOrNan mask16 b = true ↔ (interchange 5 10 b).Special) ∧
    (infinityOrNan mask32 b = true ↔ (interchange 8 23 b).Special) ∧
    (infinityOrNan mask64 b = true ↔ (interchange 11 52 b).Special) ∧
    (infinityOrNan mask128 b = true ↔ (interchange 15 112 b).Special) := by
  have e16 : mask16 = (2 ^ 5 - 1) * 2 ^ 10 := by norm_num [mask16]
  have e32 : mask32 = (2 ^ 8 - 1) * 2 ^ 23 := by norm_num [mask32]
  have e64 : mask64 = (2 ^ 11 - 1) * 2 ^ 52 := by norm_num [mask64]
  have e128 : mask128 = (2 ^ 15 - 1) * 2 ^ 112 := by norm_num [mask128]
  simp only [infinityOrNan, beq_iff_eq, special_iff]
  exact ⟨by rw [e16]; exact mask_iff 5 10 b, by rw [e32]; exact mask_iff 8 23 b, by rw [e64]; exact mask_iff 11 52 b,
    by rw [e128]; exact mask_iff 15 112 b⟩

/-- C123: the same for the extended format of `long double`, whatever the padding. -/
theorem C123_extended (b : ℕ) : infinityOrNanExtended b = true ↔ (extended b).Special := by
  rw [infinityOrNanExtended, beq_iff_eq, extended_check, extended_iff]

-- +∞, NaN and the largest finite `float`; the invalid encodings of `long double` are not reported
example : infinityOrNan mask32 0x7F800000 = true := by decide
example : infinityOrNan mask32 0xFFC00000 = true := by decide
example : infinityOrNan mask32 0x7F7FFFFF = false := by decide
example : infinityOrNanExtended 0x7FFF8000000000000000 = true := by decide
example : infinityOrNanExtended 0x7FFF0000000000000000 = false := by decide

/-! ## C124: absolute values of integers -/

/-- C124 (partial): `abs` is the absolute value of every integer but the smallest.  Missing: that one. -/
theorem C124_abs_partial (t : Spec.CInt.Ty) (ht : 1 ≤ t.bits) (x : ℤ) (hx : t.Has x) (h : t.signed = true → x ≠ t.lo) :
    absInt t x = some |x| := by
  obtain ⟨bits, signed⟩ := t
  obtain ⟨h1, h2⟩ := hx
  cases signed with
  | false =>
    have h0 : 0 ≤ x := h1
    rw [absInt, if_pos rfl, abs_of_nonneg h0]
  | true =>
    have hne := h rfl
    simp only [Spec.CInt.Ty.lo, Spec.CInt.Ty.hi, if_true] at h1 h2 hne
    have hr : (if x < 0 then -x else x) = |x| := by
      split_ifs with hx
      · rw [abs_of_neg hx]
      · rw [abs_of_nonneg (not_lt.mp hx)]
    have hb : |x| < 2 ^ (bits - 1) := by rw [abs_lt]; omega
    have h0 := abs_nonneg x
    rw [absInt, if_neg (by simp)]
    simp only [hr]
    split_ifs with c1 c2
    · congr 1
      have e : (2 : ℤ) ^ bits = 2 * 2 ^ (bits - 1) := by
        rw [← pow_succ', Nat.sub_add_cancel ht]
      have hm : |x| % 2 ^ bits = |x| := Int.emod_eq_of_lt h0 (by omega)
      simp only [Model.CInt.conv, hm]
      rw [if_neg (by push Not; intro _; exact hb)]
    · rfl
    · exfalso
      apply c2
      simp only [Spec.CInt.Ty.lo, Spec.CInt.Ty.hi, if_true]
      omega

/-- C124 is violated by the smallest value: `abs` returns it unchanged for `signed char` and `short`, and is undefined for
the wider types. -/
theorem C124_abs_violated :
    absInt ⟨8, true⟩ (-128) = some (-128) ∧ absInt ⟨16, true⟩ (-32768) = some (-32768) ∧
    absInt ⟨32, true⟩ (-2 ^ 31) = none ∧ absInt ⟨64, true⟩ (-2 ^ 63) = none := by decide

example : absInt ⟨32, true⟩ (-5) = some 5 := C124_abs_partial ⟨32, true⟩ (by norm_num) (-5) (by decide) (by decide)

/-! ## C125: approximate equality -/

/-- C125: values that are reported to be approximately equal are less than epsilon apart, for any epsilon the type has. -/
theorem C125_sound (p : ℕ) (hp : 1 ≤ p) (a b ε : ℚ) (he : rnd p ε = ε) (h : approxEqual p a b ε = true) : |b - a| < ε := by
  rw [approxEqual, decide_eq_true_eq] at h
  by_contra hc
  push Not at hc
  have : ε ≤ |rnd p (b - a)| := by
    rcases abs_cases (b - a) with ⟨h1, h2⟩ | ⟨h1, h2⟩
    · rw [h1] at hc
      have := rnd_mono p hp hc
      rw [he] at this
      exact this.trans (le_abs_self _)
    · rw [h1] at hc
      have := rnd_mono p hp hc
      rw [he, rnd_neg] at this
      exact this.trans (neg_le_abs _)
  linarith

/-- C125: values further than one part in `2ᵖ` below epsilon are reported. -/
theorem C125_complete (p : ℕ) (a b ε : ℚ) (h : |b - a| * (2 ^ p + 1) < ε * 2 ^ p) : approxEqual p a b ε = true := by
  rw [approxEqual, decide_eq_true_eq]
  have h1 := rnd_err p (b - a)
  have h2 : |rnd p (b - a)| ≤ |b - a| + |rnd p (b - a) - (b - a)| := by
    have := abs_add_le (b - a) (rnd p (b - a) - (b - a))
    rwa [add_sub_cancel] at this
  have hp : (0 : ℚ) < 2 ^ p := by positivity
  nlinarith

/-- C125: it is symmetric, and (for a positive epsilon) reflexive. -/
theorem C125_equivalence (p : ℕ) (a b ε : ℚ) :
    approxEqual p a b ε = approxEqual p b a ε ∧ (0 < ε → approxEqual p a a ε = true) := by
  constructor
  · rw [approxEqual, approxEqual, show b - a = -(a - b) by ring, rnd_neg, abs_neg]
  · intro h
    rw [approxEqual, sub_self, rnd_zero, abs_zero]
    exact decide_eq_true h

/-- C125 is violated by the epsilon zero, which the function accepts: no value is equal to itself. -/
theorem C125_zero_violated (p : ℕ) (a b : ℚ) : approxEqual p a b 0 = false := by
  rw [approxEqual, decide_eq_false_iff_not]
  exact not_lt.mpr (abs_nonneg _)

example : approxEqual 24 1 (1 + 1 / 2 ^ 20) (1 / 2 ^ 10) = true := C125_complete 24 _ _ _ (by norm_num [abs_of_pos])
example : |(1 + 1 / 2 ^ 20 : ℚ) - 1| < 1 / 2 ^ 10 :=
  C125_sound 24 (by norm_num) _ _ _ (by decide +kernel) (C125_complete 24 _ _ _ (by norm_num [abs_of_pos]))

/-! ## C126: linear interpolation -/

/-- C126: `lerp` gives exactly `start` for zero and exactly `finish` for one, however the compiler fuses operations. -/
theorem C126_ends (f : Fused) (p : ℕ) (hp : 1 ≤ p) (a b : ℚ) (ha : rnd p a = a) (hb : rnd p b = b) :
    lerp f p a b 0 = a ∧ lerp f p a b 1 = b := by
  have h1 : rnd p 1 = 1 := by
    have := rnd_nat p hp 1 (Nat.one_le_two_pow)
    simpa using this
  cases f <;> simp [lerp, rnd_zero, h1, ha, hb]

/-- C126: and for any `alpha` something close to the point in between. -/
theorem C126_error (f : Fused) (p : ℕ) (hp : 3 ≤ p) (a b t : ℚ) :
    |lerp f p a b t - ((1 - t) * a + t * b)| ≤ 4 / 2 ^ p * (|(1 - t) * a| + |t * b|) := by
  obtain ⟨e1, e2, e3, e4, h1, h2, h3, h4, hl⟩ := lerp_form f p a b t
  have hu : (1 : ℚ) / 2 ^ p ≤ 1 / 8 := by
    apply one_div_le_one_div_of_le (by norm_num)
    calc (8 : ℚ) = 2 ^ 3 := by norm_num
      _ ≤ 2 ^ p := pow_le_pow_right₀ (by norm_num) hp
  have z : |(0 : ℚ)| ≤ 1 / 2 ^ p := by simp
  have A := prod3 _ e1 e2 e4 h1 h2 h4 hu
  have B := prod3 _ e3 0 e4 h3 z h4 hu
  have e : lerp f p a b t - ((1 - t) * a + t * b) =
      (1 - t) * a * ((1 + e1) * (1 + e2) * (1 + e4) - 1) + t * b * ((1 + e3) * (1 + 0) * (1 + e4) - 1) := by
    rw [hl]; ring
  rw [e]
  refine (abs_add_le _ _).trans ?_
  rw [abs_mul ((1 - t) * a) ((1 + e1) * (1 + e2) * (1 + e4) - 1), abs_mul (t * b) ((1 + e3) * (1 + 0) * (1 + e4) - 1)]
  have i1 := mul_le_mul_of_nonneg_left A (abs_nonneg ((1 - t) * a))
  have i2 := mul_le_mul_of_nonneg_left B (abs_nonneg (t * b))
  have e5 : (4 : ℚ) / 2 ^ p = 4 * (1 / 2 ^ p) := by ring
  rw [e5]
  linarith

/-- C126 is violated between the ends: unlike `std::lerp`, between two equal values it can give something else, outside
their range.  For `float` and `double`, with or without fusing. -/
theorem C126_constant_violated :
    lerp .none 24 3 3 (3050403 / 2 ^ 25) < 3 ∧ lerp .left 24 15 15 (15486661 / 2 ^ 25) > 15 ∧
    lerp .right 24 3 3 (3050403 / 2 ^ 25) < 3 ∧ lerp .none 53 3 3 (5404319552844595 / 2 ^ 54) < 3 ∧
    lerp .left 53 15 15 (7720456504063707 / 2 ^ 54) < 15 ∧ lerp .right 53 3 3 (5404319552844595 / 2 ^ 54) < 3 := by
  decide +kernel

example : rnd 24 (3050403 / 2 ^ 25) = 3050403 / 2 ^ 25 := by decide +kernel

/-! ## C122: normalizing angles, with rounding -/

/-- C122 is violated by rounding: a small negative angle gives exactly `2π`, which is outside `[0, 2π)`. -/
theorem C122_small_violated :
    normalizeAngle false 24 (-1 / 2 ^ 30) = twoPi 24 ∧ normalizeAngle true 24 (-1 / 2 ^ 30) = twoPi 24 ∧
    normalizeAngle false 53 (-1 / 2 ^ 60) = twoPi 53 ∧ normalizeAngle true 53 (-1 / 2 ^ 60) = twoPi 53 := by
  decide +kernel

/-- C122 is violated by rounding: some positive angles give a negative one. -/
theorem C122_negative_violated :
    normalizeAngle false 24 (14412119 / 2 ^ 16) < 0 ∧ normalizeAngle true 24 (2470649 / 2 ^ 17) < 0 ∧
    normalizeAngle false 53 (5747818173523107 / 2 ^ 46) < 0 ∧ normalizeAngle true 53 (18998197087967 / 2 ^ 38) < 0 := by
  decide +kernel

/-- C122 is violated by rounding: some angles give a signed one below `-π`, and some one that is not below `π`. -/
theorem C122_signed_violated :
    normalizeAngleSigned false 24 (-8389913 / 2 ^ 14) < -pi 24 ∧ normalizeAngleSigned true 24 (-2534989 / 2 ^ 12) < -pi 24 ∧
    normalizeAngleSigned false 53 (-8455924812971495 / 2 ^ 44) < -pi 53 ∧
    normalizeAngleSigned true 53 (-5278044572802469 / 2 ^ 43) < -pi 53 ∧
    normalizeAngleSigned false 24 (6073679 / 2 ^ 15) ≥ pi 24 ∧
    normalizeAngleSigned false 53 (-7074237752028441 / 2 ^ 51) ≥ pi 53 ∧
    normalizeAngleSigned true 53 (-7074237752028441 / 2 ^ 51) ≥ pi 53 := by
  decide +kernel

end Verif.Props.Scalar
