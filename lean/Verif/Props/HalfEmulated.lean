import Verif.Proofs.HalfEmulated
/-!
# Arithmetic of emulated halves

The reference: IEEE 754 arithmetic (`Spec/IeeeArith.lean`). `Number.round16` of the exact result is the number that IEEE 754 prescribes;
`FaithfulResult` also allows the half on the other side of the exact result.
-/
namespace Verif.Props.HalfEmulated
open Verif.Spec.IeeeArith Verif.Spec.Float Verif.Spec.SmallFloat Verif.Model.HalfEmulated Verif.Proofs.HalfEmulated

/-- C141 (partial): sums are faithful, with infinities, NaN and the signs of zeros as IEEE 754 has them. Missing: sums that are
subnormal but not zero, and rounding to the nearest. -/
theorem C141_add_partial (a b : BitVec 16)
    (h : ∀ s z, (value16 a).add (value16 b) = .fin s z → z = 0 ∨ 1 / 2 ^ 14 ≤ z) :
    ∃ r, add a b = some r ∧ FaithfulResult ((value16 a).add (value16 b)) (value16 r) := by
  refine ⟨_, viaFloat_eq _ a b, convert_faithful _ (add_nonneg' _ _) fun s z hz => ?_⟩
  rcases h s z hz with h0 | h0
  · exact Or.inl h0
  · exact Or.inr ⟨h0, (sum_range hz).2.trans (by norm_num)⟩

/-- C141 (partial): so are differences. -/
theorem C141_sub_partial (a b : BitVec 16)
    (h : ∀ s z, (value16 a).sub (value16 b) = .fin s z → z = 0 ∨ 1 / 2 ^ 14 ≤ z) :
    ∃ r, sub a b = some r ∧ FaithfulResult ((value16 a).sub (value16 b)) (value16 r) := by
  refine ⟨_, viaFloat_eq _ a b, convert_faithful _ (sub_nonneg' _ _) fun s z hz => ?_⟩
  rcases h s z hz with h0 | h0
  · exact Or.inl h0
  · refine Or.inr ⟨h0, ?_⟩
    rw [Number.sub, ← value_neg b] at hz
    exact (sum_range hz).2.trans (by norm_num)

/-- C141 (partial): so are products and quotients. Missing, besides: those above 131071. -/
theorem C141_mul_partial (a b : BitVec 16)
    (h : ∀ s z, (value16 a).mul (value16 b) = .fin s z → z = 0 ∨ (1 / 2 ^ 14 ≤ z ∧ z ≤ 131071)) :
    ∃ r, mul a b = some r ∧ FaithfulResult ((value16 a).mul (value16 b)) (value16 r) :=
  ⟨_, viaFloat_eq _ a b, convert_faithful _ (mul_nonneg' (value_nonneg a) (value_nonneg b)) h⟩

/-- C141 (partial): quotients; a division by zero gives an infinity, or NaN if the dividend is zero or NaN. -/
theorem C141_div_partial (a b : BitVec 16)
    (h : ∀ s z, (value16 a).div (value16 b) = .fin s z → z = 0 ∨ (1 / 2 ^ 14 ≤ z ∧ z ≤ 131071)) :
    ∃ r, div a b = some r ∧ FaithfulResult ((value16 a).div (value16 b)) (value16 r) :=
  ⟨_, viaFloat_eq _ a b, convert_faithful _ (div_nonneg' (value_nonneg a) (value_nonneg b)) h⟩

/-- 1.5 * 2.5, 65504 + 65504, 1 / 0, infinity - infinity, -0 + -0. -/
example : mul 0x3e00#16 0x4100#16 = some 0x4380#16 ∧ value16 0x4380#16 = .fin false (15 / 4) ∧ add 0x7bff#16 0x7bff#16 = some 0x7c00#16 ∧
    div 0x3c00#16 0x8000#16 = some 0xfc00#16 ∧ (sub 0x7c00#16 0x7c00#16).map value16 = some .nan ∧ add 0x8000#16 0x8000#16 = some 0x8000#16 := by
  decide +kernel

/-- The increment operators add one and the decrement operators subtract one; after the operand they return the old value. -/
theorem C141_increment (v : BitVec 16) :
    increment v = add v 0x3c00#16 ∧ decrement v = sub v 0x3c00#16 ∧ value16 0x3c00#16 = .fin false 1 ∧
    postIncrement v = (add v 0x3c00#16).map (v, ·) ∧ postDecrement v = (sub v 0x3c00#16).map (v, ·) := by
  obtain ⟨x, hx, ex⟩ := value_single v
  have h1 : value32 0x3f800000#32 = value16 0x3c00#16 := by decide +kernel
  have hi : increment v = add v 0x3c00#16 := by
    rw [add, viaFloat_eq, increment, hx, h1]
    simp only [Option.bind_eq_bind, Option.bind_some, ex]
  have hd : decrement v = sub v 0x3c00#16 := by
    rw [sub, viaFloat_eq, decrement, hx, h1]
    simp only [Option.bind_eq_bind, Option.bind_some, ex]
  refine ⟨hi, hd, by decide +kernel, ?_, ?_⟩
  · rw [postIncrement, hi]; cases add v 0x3c00#16 <;> rfl
  · rw [postDecrement, hd]; cases sub v 0x3c00#16 <;> rfl

example : increment 0x3c00#16 = some 0x4000#16 ∧ postDecrement 0x3c00#16 = some (0x3c00#16, 0#16) := by decide +kernel

/-- C141 is violated: the result need not be the nearest half. 1 + 0.000732 is 1, not 1.000977. -/
theorem C141_nearest_violated :
    add 0x3c00#16 0x1200#16 = some 0x3c00#16 ∧ ((value16 0x3c00#16).add (value16 0x1200#16)).round16 = value16 0x3c01#16 := by
  decide +kernel

/-- C141 is violated by **every** sum that is subnormal and not zero: such a sum is always exactly a half, but it is never the result. -/
theorem C141_subnormal_violated (a b : BitVec 16) (s : Bool) (z : ℚ) (h : (value16 a).add (value16 b) = .fin s z) (h0 : 0 < z)
    (h1 : z < 1 / 2 ^ 14) : IsHalf z ∧ ∃ r, add a b = some r ∧ value16 r ≠ .fin s z := by
  obtain ⟨⟨k, rfl⟩, -⟩ := sum_range h
  refine ⟨isHalf_units k h1, _, viaFloat_eq _ a b, ?_⟩
  rw [h]
  exact convert_subnormal s k h0 h1

/-- 2^-13 - 1.5 * 2^-14, where the sum is 2^-15, gives 2^-16. -/
example : value16 0x0800#16 = .fin false (1 / 2 ^ 13) ∧ value16 0x8600#16 = .fin true (3 / 2 ^ 15) ∧
    (add 0x0800#16 0x8600#16).map value16 = some (.fin false (1 / 2 ^ 16)) := by decide +kernel

/-- C141 is violated by **every** product of 2^17 or more, which should be infinite: it is finite and negative (or minus zero). -/
theorem C141_large_violated (a b : BitVec 16) (s : Bool) (z : ℚ) (h : (value16 a).mul (value16 b) = .fin s z) (h1 : 2 ^ 17 ≤ z) :
    ((value16 a).mul (value16 b)).round16 = .inf s ∧ ∃ r q, mul a b = some r ∧ value16 r = .fin true q := by
  have hz : z ≤ 2 ^ 32 := product_range h
  obtain ⟨q, hq⟩ := convert_large s z h1 hz
  exact ⟨by rw [h]; exact round16_large s z h1, _, q, viaFloat_eq _ a b, by rw [h]; exact hq⟩

/-- 512 * 512 is -0.00006. -/
example : (mul 0x6000#16 0x6000#16).map value16 = some (.fin true (1 / 2 ^ 14)) := by decide +kernel

end Verif.Props.HalfEmulated
