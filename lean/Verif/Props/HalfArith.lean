import Verif.Proofs.HalfArith
import Verif.Proofs.HalfEmulated
import Verif.Props.Scalar
import Mathlib.Analysis.SpecialFunctions.Complex.Arg
import Mathlib.Analysis.Real.Pi.Bounds

/-!
# Arithmetic of `half`

The reference: IEEE 754 arithmetic, which gives the exact result rounded once (`Spec/SmallFloat.lean`), and the angle of a
point (`Complex.arg`).
-/

namespace Verif.Props.HalfArith

open Verif.Spec Verif.Model.HalfArith Verif.Spec.SmallFloat Verif.Spec.Float Verif.Proofs.HalfArith

/-! ## C130: arithmetic -/

/-- C130: sums are rounded as if once, although they go through `float`, also when they underflow or overflow. -/
theorem C130_add (a b : ℚ) (ha : IsHalf a) (hb : IsHalf b) : Model.HalfArith.add a b = half (a + b) := add_eq a b ha hb

/-- C130: so are differences. -/
theorem C130_sub (a b : ℚ) (ha : IsHalf a) (hb : IsHalf b) : Model.HalfArith.sub a b = half (a - b) := by
  rw [Model.HalfArith.sub, sub_eq_add_neg]
  exact add_eq a (-b) ha (isHalf_neg hb)

/-- C130: so are products. -/
theorem C130_mul (a b : ℚ) (ha : IsHalf a) (hb : IsHalf b) : Model.HalfArith.mul a b = half (a * b) := mul_eq a b ha hb

/-- C130: so are quotients. -/
theorem C130_div (a b : ℚ) (ha : IsHalf a) (hb : IsHalf b) (hb0 : b ≠ 0) : Model.HalfArith.div a b = half (a / b) :=
  div_eq a b ha hb hb0

/-- C130: a result that the type has is exact. -/
theorem C130_exact (a b : ℚ) (ha : IsHalf a) (hb : IsHalf b) :
    (IsHalf (a + b) → Model.HalfArith.add a b = .finite (a + b)) ∧ (IsHalf (a - b) → Model.HalfArith.sub a b = .finite (a - b)) ∧
    (IsHalf (a * b) → Model.HalfArith.mul a b = .finite (a * b)) ∧
    (b ≠ 0 → IsHalf (a / b) → Model.HalfArith.div a b = .finite (a / b)) :=
  ⟨fun h => (C130_add a b ha hb).trans (half_exact _ h), fun h => (C130_sub a b ha hb).trans (half_exact _ h),
    fun h => (C130_mul a b ha hb).trans (half_exact _ h), fun h0 h => (C130_div a b ha hb h0).trans (half_exact _ h)⟩

/-- C130: the same for all values: every operation has the result that IEEE 754 prescribes, with infinities, NaN, signed zeros,
underflow and overflow. -/
theorem C130_ieee (a b : BitVec 16) (op : IeeeArith.Number → IeeeArith.Number → IeeeArith.Number)
    (hop : op = .add ∨ op = .sub ∨ op = .mul ∨ op = .div) :
    ieee op a b = (op (IeeeArith.value16 a) (IeeeArith.value16 b)).round16 := by
  rcases hop with rfl | rfl | rfl | rfl
  · exact Proofs.HalfEmulated.native_add a b
  · rw [ieee, IeeeArith.Number.sub, ← Proofs.HalfEmulated.value_neg b]
    exact Proofs.HalfEmulated.native_add a _
  · exact Proofs.HalfEmulated.native_mul a b
  · exact Proofs.HalfEmulated.native_div a b

/-- -0.0 / 65504, 6e-8 / 65504 (which underflows), 1 / -0.0, infinity * 0. -/
example : ieee .div 0x8000#16 0x7bff#16 = .fin true 0 ∧ ieee .div 1#16 0x7bff#16 = .fin false 0 ∧ ieee .div 0x3c00#16 0x8000#16 = .inf true ∧
    ieee .mul 0x7c00#16 0#16 = .nan ∧ ieee .add 0x7bff#16 0x4c00#16 = .inf false := by decide +kernel

/-- C130: comparison with an integer is exact, although the integer is rounded to `float`. -/
theorem C130_compare (a : ℚ) (ha : IsHalf a) (n : ℤ) (hn : |n| ≤ 2 ^ 127) : ltInt a n = some (decide (a < n)) := by
  have h1 : (n : ℚ) = 0 ∨ 2 ^ (-126 : ℤ) ≤ |(n : ℚ)| := by
    by_cases h : n = 0
    · left; exact_mod_cast h
    · right
      have h1 : (1 : ℚ) ≤ |(n : ℚ)| := by
        rw [← Int.cast_abs]
        exact_mod_cast Int.one_le_abs h
      exact le_trans (by norm_num) h1
  have h2 : |(n : ℚ)| ≤ 2 ^ (127 : ℤ) := by
    rw [← Int.cast_abs]
    exact_mod_cast hn
  rw [ltInt, single_eq n h1 h2]
  simp only [Option.some.injEq, decide_eq_decide]
  obtain ⟨m, k, hm, hk, hk2, rfl⟩ := ha
  have hb := abs_le.mp (half_bound hm hk2)
  have h16 : (2 : ℚ) ^ (16 : ℤ) < 2 ^ 24 := by norm_num
  by_cases hs : |n| ≤ 2 ^ 24
  · have := Proofs.Float.rnd_exact 24 (by norm_num) n 0 hs
    rw [zpow_zero, mul_one] at this
    rw [this]
  · push Not at hs
    have fix (s : ℤ) (h : |s| ≤ 2 ^ 24) : rnd 24 s = s := by
      have := Proofs.Float.rnd_exact 24 (by norm_num) s 0 h
      rwa [zpow_zero, mul_one] at this
    rcases lt_abs.mp hs with h | h
    · have hq : ((2 ^ 24 : ℤ) : ℚ) ≤ n := by exact_mod_cast h.le
      have := Proofs.Float.rnd_mono 24 (by norm_num) hq
      rw [fix _ (by norm_num)] at this
      push_cast at this hq
      constructor <;> intro <;> linarith
    · have hq : (n : ℚ) ≤ ((-2 ^ 24 : ℤ) : ℚ) := by
        have : n ≤ -2 ^ 24 := by omega
        exact_mod_cast this
      have := Proofs.Float.rnd_mono 24 (by norm_num) hq
      rw [fix (-2 ^ 24) (by norm_num)] at this
      push_cast at this hq
      constructor <;> intro <;> linarith

/-- C130 is violated by products with integers, which are rounded twice: `2⁻¹⁴ · (2²⁴ + 2¹³ + 1)` is above the midpoint
of `1024` and `1025` but gives `1024`. -/
theorem C130_integer_violated :
    mulInt (1 / 2 ^ 14) (2 ^ 24 + 2 ^ 13 + 1) = .finite 1024 ∧ half (1 / 2 ^ 14 * (2 ^ 24 + 2 ^ 13 + 1)) = .finite 1025 := by
  decide +kernel

example : IsHalf (1 / 2 ^ 24) := ⟨1, -24, by norm_num, by norm_num, by norm_num, by norm_num⟩
example : IsHalf 65504 := ⟨2047, 5, by norm_num, by norm_num, by norm_num, by norm_num⟩
example : half (1 / 3) = .finite (1365 / 4096) := by decide +kernel
example : half 65520 = .infinite false := by decide +kernel
example : half (1 / 2 ^ 25) = .finite 0 := by decide +kernel

/-! ## C131: functions -/

/-- C131: `lerp` gives exactly its ends. -/
theorem C131_lerp_ends (f : Model.Scalar.Fused) (a b : ℚ) (ha : IsHalf a) (hb : IsHalf b) :
    Model.HalfArith.lerp f a b 0 = .finite a ∧ Model.HalfArith.lerp f a b 1 = .finite b := by
  have fix (x : ℚ) (hx : IsHalf x) : rnd 24 x = x := by
    obtain ⟨m, k, hm, -, -, rfl⟩ := hx
    exact Proofs.Float.rnd_exact 24 (by norm_num) m k (hm.le.trans (by norm_num))
  obtain ⟨h0, h1⟩ := Scalar.C126_ends f 24 (by norm_num) a b (fix a ha) (fix b hb)
  exact ⟨by rw [Model.HalfArith.lerp, h0]; exact half_exact a ha, by rw [Model.HalfArith.lerp, h1]; exact half_exact b hb⟩

/-- C131 (partial): `atan2(y, x)` is close to the angle of the point `(y, x)`.  Missing: it should be that of `(x, y)`. -/
theorem C131_atan2_partial (single : ℝ → ℝ → ℝ) (toHalf : ℝ → ℝ) (ε δ : ℝ) (hs : ∀ y x, |single y x - Complex.arg ⟨x, y⟩| ≤ ε)
    (hh : ∀ r, |toHalf r - r| ≤ δ) (y x : ℝ) : |Model.HalfArith.atan2 single toHalf y x - Complex.arg ⟨y, x⟩| ≤ δ + ε := by
  have := abs_add_le (toHalf (single x y) - single x y) (single x y - Complex.arg ⟨y, x⟩)
  rw [sub_add_sub_cancel] at this
  exact this.trans (add_le_add (hh _) (hs _ _))

/-- C131 is violated by `atan2`: it swaps its arguments, so that the angle of `(1, 0)` is a right angle and not zero. -/
theorem C131_atan2_violated (single : ℝ → ℝ → ℝ) (toHalf : ℝ → ℝ) (hs : ∀ y x, |single y x - Complex.arg ⟨x, y⟩| ≤ 1 / 2 ^ 8)
    (hh : ∀ r, |toHalf r - r| ≤ 1 / 2 ^ 8) : Model.HalfArith.atan2 single toHalf 0 1 > 3 / 2 ∧ Complex.arg ⟨1, 0⟩ = 0 := by
  constructor
  · have h := C131_atan2_partial single toHalf _ _ hs hh 0 1
    have e : Complex.arg ⟨0, 1⟩ = Real.pi / 2 := Complex.arg_I
    rw [e, abs_le] at h
    have := Real.pi_gt_d2
    norm_num at h
    linarith [h.1]
  · exact Complex.arg_one

end Verif.Props.HalfArith
