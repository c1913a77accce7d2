import Verif.Model.HalfConvert
import Verif.Proofs.HalfEmulated
import Mathlib.Data.Rat.Floor
/-!
# C161: conversions between `half` and other arithmetic types

The reference is `Spec/IeeeArith.lean`; `value16` is what the bits of a half stand for.
-/
namespace Verif.Props.HalfConvert
open Verif.Spec.IeeeArith Verif.Spec.Float Verif.Spec.SmallFloat Verif.Model.HalfConvert Verif.Proofs.HalfEmulated

/-- The integer towards zero from a number with this sign and magnitude. -/
def towardsZero (s : Bool) (a : ℚ) : ℤ := if s then -⌊a⌋ else ⌊a⌋

/-- **C161 (from other types, partial).** Where half is emulated: a number of another floating-point type, or a literal, becomes one of the two nearest halves, and itself if it is a half; infinities, NaN and the signs of zeros are kept. Missing: numbers below the least normal half, numbers above 131071, and that the half is the nearest. -/
theorem C161_from_number_partial (x : Number)
    (h : ∀ s a, x = .fin s a → a = 0 ∨ (1 / 2 ^ 14 ≤ a ∧ a ≤ 131071)) :
    FaithfulResult x (value16 (fromNumber x)) := by
  refine convert_faithful x ?_ h
  cases x with
  | nan => trivial
  | inf s => trivial
  | fin s a =>
    rcases h s a rfl with rfl | ⟨h1, -⟩
    · exact le_refl (0 : ℚ)
    · exact le_trans (by positivity : (0 : ℚ) ≤ 1 / 2 ^ 14) h1

example : FaithfulResult (.fin true (7 / 3)) (value16 (fromNumber (.fin true (7 / 3)))) :=
  C161_from_number_partial _ (by rintro s a ⟨⟩; exact Or.inr (by norm_num))
example : value16 (fromNumber (.fin true (7 / 3))) = .fin true (597 / 256) := by decide +kernel

theorem isHalf_small (n : ℤ) (h : |n| ≤ 2048) : IsHalf n := by
  by_cases h1 : |n| < 2 ^ 11
  · exact ⟨n, 0, h1, by norm_num, by norm_num, by simp⟩
  · have : |n| = 2048 := by omega
    rcases abs_choice n with h2 | h2
    · exact ⟨1024, 1, by norm_num, by norm_num, by norm_num, by rw [← h2, this]; norm_num⟩
    · refine ⟨-1024, 1, by norm_num, by norm_num, by norm_num, ?_⟩
      have : n = -2048 := by omega
      rw [this]; norm_num

/-- A finite half gives itself. -/
theorem from_half (s : Bool) (a : ℚ) (ha : a = 0 ∨ (1 / 2 ^ 14 ≤ a ∧ a ≤ 131071)) (hh : IsHalf a) :
    value16 (fromNumber (.fin s a)) = .fin s a := by
  have := C161_from_number_partial (.fin s a) (by rintro t b ⟨⟩; exact ha)
  obtain ⟨q, hq, -, hf⟩ := this.1 (le_65504 hh)
  rw [hq, le_antisymm ((hf a hh).2 le_rfl) ((hf a hh).1 le_rfl)]

/-- **C161 (integers).** Where half is emulated: every integer from -2048 to 2048, of whatever type, becomes the half with just this value, and comes back as the same integer. -/
theorem C161_integer (n : ℤ) (hn : |n| ≤ 2048) (lo hi : ℤ) (hlo : lo ≤ n) (hhi : n ≤ hi) :
    value16 (fromInt n) = .fin (decide (n < 0)) |(n : ℚ)| ∧ toInt (fromInt n) lo hi = some (some n) := by
  have hab : ((n.natAbs : ℕ) : ℚ) = |(n : ℚ)| := by
    rw [Nat.cast_natAbs]; push_cast; rfl
  have h1 : value16 (fromInt n) = .fin (decide (n < 0)) |(n : ℚ)| := by
    have hle : (n.natAbs : ℚ) ≤ 2048 := by
      rw [hab]; exact_mod_cast hn
    have := from_half (decide (n < 0)) (n.natAbs : ℚ) (by
      rcases Nat.eq_zero_or_pos n.natAbs with h | h
      · left; rw [h]; rfl
      · right
        have : (1 : ℚ) ≤ n.natAbs := by exact_mod_cast h
        exact ⟨le_trans (by norm_num) this, le_trans hle (by norm_num)⟩) (by
      have := isHalf_small |n| (by rwa [abs_abs])
      rw [hab, ← Int.cast_abs]
      exact this)
    rw [hab] at this
    rw [← this]
    simp only [fromNumber, fromInt, ofInt, hab]
  refine ⟨h1, ?_⟩
  obtain ⟨x, hx, ex⟩ := value_single (fromInt n)
  simp only [toInt, hx, Option.map_some, ex, h1, truncate]
  have hfl : ⌊|(n : ℚ)|⌋ = |n| := by
    rw [← Int.cast_abs, Int.floor_intCast]
  have : (if decide (n < 0) = true then -⌊|(n : ℚ)|⌋ else ⌊|(n : ℚ)|⌋) = n := by
    rw [hfl]
    split_ifs with h
    · rw [abs_of_neg (of_decide_eq_true h)]; omega
    · rw [abs_of_nonneg (by simpa using h)]
  rw [this, if_pos ⟨hlo, hhi⟩]

example : value16 (fromInt (-2047)) = .fin true 2047 ∧ toInt (fromInt (-2047)) (-32768) 32767 = some (some (-2047)) := by
  have := C161_integer (-2047) (by norm_num) (-32768) 32767 (by norm_num) (by norm_num)
  exact ⟨by rw [this.1]; norm_num, this.2⟩

/-- **C161 (larger integers, partial).** Integers up to 131071 become one of the two nearest halves, or infinity from 65536 on. -/
theorem C161_integer_faithful_partial (n : ℤ) (hn : |n| ≤ 131071) :
    FaithfulResult (.fin (decide (n < 0)) |(n : ℚ)|) (value16 (fromInt n)) := by
  have hab : ((n.natAbs : ℕ) : ℚ) = |(n : ℚ)| := by
    rw [Nat.cast_natAbs]; push_cast; rfl
  have := C161_from_number_partial (.fin (decide (n < 0)) |(n : ℚ)|) (by
    rintro s a ⟨⟩
    rcases eq_or_ne n 0 with h | h
    · left; simp [h]
    · right
      have h1 : (1 : ℤ) ≤ |n| := Int.one_le_abs h
      have h2 : (1 : ℚ) ≤ |(n : ℚ)| := by exact_mod_cast h1
      refine ⟨le_trans (by norm_num) h2, ?_⟩
      exact_mod_cast hn)
  simpa only [fromInt, ofInt, hab, fromNumber] using this

example : FaithfulResult (.fin true |((-70000 : ℤ) : ℚ)|) (value16 (fromInt (-70000))) := C161_integer_faithful_partial (-70000) (by norm_num)
example : value16 (fromInt (-70000)) = .inf true := by decide +kernel

/-- **C161 is violated** by integers: 2051, half way between 2050 and 2052, should become 2052, and 4099, of which 4100 is the nearest, becomes 4096. -/
theorem C161_nearest_violated :
    value16 (fromInt 2051) = .fin false 2050 ∧ (ofInt 2051).round16 = .fin false 2052 ∧
    value16 (fromInt 4099) = .fin false 4096 ∧ (ofInt 4099).round16 = .fin false 4100 := by decide +kernel

/-- **C161 is violated** by every integer with a magnitude from 2^17 to 2^32: it should become infinite, but becomes a finite number that is negative (or minus zero). -/
theorem C161_large_violated (n : ℤ) (h1 : 2 ^ 17 ≤ |n|) (h2 : |n| ≤ 2 ^ 32) :
    (ofInt n).round16 = .inf (decide (n < 0)) ∧ ∃ q, value16 (fromInt n) = .fin true q := by
  have hab : ((n.natAbs : ℕ) : ℚ) = |(n : ℚ)| := by
    rw [Nat.cast_natAbs]; push_cast; rfl
  have h1' : (2 : ℚ) ^ 17 ≤ (n.natAbs : ℚ) := by rw [hab]; exact_mod_cast h1
  have h2' : (n.natAbs : ℚ) ≤ (2 : ℚ) ^ 32 := by rw [hab]; exact_mod_cast h2
  exact ⟨round16_large _ _ h1', convert_large _ _ h1' h2'⟩

example : ∃ q, value16 (fromInt 1000000) = .fin true q := (C161_large_violated 1000000 (by norm_num) (by norm_num)).2

/-- **C161 (to integers).** A finite half becomes the integer towards zero, if the type can hold it; otherwise (and for infinities and NaN) the conversion is undefined. Emulated and native. -/
theorem C161_to_integer (v : BitVec 16) (lo hi : ℤ) :
    (∀ s a, value16 v = .fin s a → lo ≤ towardsZero s a → towardsZero s a ≤ hi →
      toInt v lo hi = some (some (towardsZero s a)) ∧ nativeToInt (value16 v) lo hi = some (towardsZero s a)) ∧
    ((∀ s a, value16 v = .fin s a → ¬ (lo ≤ towardsZero s a ∧ towardsZero s a ≤ hi)) →
      toInt v lo hi = some none ∧ nativeToInt (value16 v) lo hi = none) := by
  obtain ⟨x, hx, ex⟩ := value_single v
  have hr : (value16 v).round32 = value16 v := by
    have := value_encode (value16 v) (value_nonneg v)
    cases hv : value16 v with
    | nan => rfl
    | inf s => rfl
    | fin s a =>
      have hh := (half_nonneg hv)
      have hfix := rnd_fix hh.2
      have hle := le_65504 hh.2
      simp only [Number.round32, Number.round]
      have : rounded 24 (-126) a = a := by
        rw [rounded]
        split_ifs with hs
        · have ha0 : a = 0 := by
            rw [abs_of_nonneg hh.1] at hs
            obtain ⟨m, k, hm, hk, -, e⟩ := hh.2
            rcases Int.lt_trichotomy m 0 with h | h | h
            · exfalso
              have : a < 0 := by rw [e]; exact mul_neg_of_neg_of_pos (by exact_mod_cast h) (by positivity)
              linarith [hh.1]
            · rw [e, h]; simp
            · exfalso
              have h1 : (1 : ℚ) ≤ m := by exact_mod_cast h
              have h2 : (2 : ℚ) ^ (-24 : ℤ) ≤ 2 ^ k := zpow_le_zpow_right₀ (by norm_num) hk
              have h3 : (2 : ℚ) ^ (-126 : ℤ) < 2 ^ (-24 : ℤ) := by norm_num
              have h4 : (2 : ℚ) ^ k ≤ m * 2 ^ k := le_mul_of_one_le_left (by positivity) h1
              linarith
          rw [ha0]; simp [roundEven]
        · exact hfix
      rw [this, if_neg]
      rw [not_lt]; exact hle.trans (by norm_num)
  constructor
  · intro s a hv h1 h2
    simp only [towardsZero] at h1 h2 ⊢
    constructor
    · simp only [toInt, hx, Option.map_some, ex, hv, truncate, if_pos (And.intro h1 h2)]
    · rw [nativeToInt, hr, hv]
      simp only [truncate, if_pos (And.intro h1 h2)]
  · intro h
    have key : truncate (value16 v) lo hi = none := by
      cases hv : value16 v with
      | nan => rfl
      | inf s => rfl
      | fin s a =>
        have := h s a hv
        simp only [towardsZero] at this
        simp only [truncate, if_neg this]
    exact ⟨by simp only [toInt, hx, Option.map_some, ex, key], by rw [nativeToInt, hr, key]⟩

/-- 3.5 becomes 3 and -3.5 becomes -3; 300 does not fit into 8 bits. -/
example : toInt 0x4300#16 0 255 = some (some 3) ∧ toInt 0xc300#16 (-128) 127 = some (some (-3)) ∧ toInt 0x5cb0#16 0 255 = some none := by
  decide +kernel

/-- **C161 (always defined).** A finite half, emulated, becomes an integer of 32 bits or more without undefined behaviour, and an unsigned integer if it is above -1. -/
theorem C161_to_integer_defined (v : BitVec 16) (s : Bool) (a : ℚ) (hv : value16 v = .fin s a) (lo hi : ℤ) (hhi : 65504 ≤ hi) :
    (lo ≤ -65504 → ∃ n, toInt v lo hi = some (some n)) ∧
    (lo = 0 → s = false ∨ a < 1 → ∃ n, toInt v lo hi = some (some n)) := by
  have hh := half_nonneg hv
  have hle := le_65504 hh.2
  have hfl : ⌊a⌋ ≤ 65504 := by
    have : ⌊a⌋ ≤ ⌊(65504 : ℚ)⌋ := Int.floor_mono hle
    simpa using this
  have hf0 : 0 ≤ ⌊a⌋ := Int.floor_nonneg.2 hh.1
  constructor
  · intro hlo
    refine ⟨_, ((C161_to_integer v lo hi).1 s a hv ?_ ?_).1⟩ <;> simp only [towardsZero] <;> split_ifs <;> omega
  · intro hlo hs
    refine ⟨_, ((C161_to_integer v lo hi).1 s a hv ?_ ?_).1⟩ <;> simp only [towardsZero] <;> split_ifs with h
    · rcases hs with hs | hs
      · rw [hs] at h; cases h
      · have : ⌊a⌋ < 1 := Int.floor_lt.2 (by simpa using hs)
        omega
    · omega
    · omega
    · omega

example : ∃ n, toInt 0xfbff#16 (-2147483648) 2147483647 = some (some n) :=
  (C161_to_integer_defined 0xfbff#16 true 65504 (by decide +kernel) _ _ (by norm_num)).1 (by norm_num)

/-- **C161 (to wider types).** A half becomes a `double` or wider with the same value, infinities, NaN and signed zeros included. -/
theorem C161_to_wide (v : BitVec 16) : toWide v = some (value16 v) := by
  obtain ⟨x, hx, ex⟩ := value_single v
  simp only [toWide, hx, Option.map_some, ex]

/-- **C161 (booleans).** `half(true)` is 1 and `half(false)` is 0. -/
theorem C161_bool (b : Bool) : value16 (fromBool b) = .fin false (if b then 1 else 0) := by
  cases b <;> decide +kernel

/-- **C161 (native).** Where half is native, a conversion from an integer from -2048 to 2048 is exact, and comes back as the same integer. -/
theorem C161_native_integer (n : ℤ) (hn : |n| ≤ 2048) (lo hi : ℤ) (hlo : lo ≤ n) (hhi : n ≤ hi) :
    nativeFromNumber (ofInt n) = .fin (decide (n < 0)) |(n : ℚ)| ∧
    nativeToInt (nativeFromNumber (ofInt n)) lo hi = some n := by
  obtain ⟨h1, h2⟩ := C161_integer n hn lo hi hlo hhi
  have hab : ((n.natAbs : ℕ) : ℚ) = |(n : ℚ)| := by
    rw [Nat.cast_natAbs]; push_cast; rfl
  have h3 : nativeFromNumber (ofInt n) = .fin (decide (n < 0)) |(n : ℚ)| := by
    have hle : |(n : ℚ)| ≤ 2048 := by exact_mod_cast hn
    have hrd : rounded 11 (-14) |(n : ℚ)| = |(n : ℚ)| := by
      rw [rounded]
      split_ifs with hs
      · have : n = 0 := by
          by_contra h
          have h1 : (1 : ℤ) ≤ |n| := Int.one_le_abs h
          have h2 : (1 : ℚ) ≤ |(n : ℚ)| := by exact_mod_cast h1
          rw [abs_abs] at hs
          have h3 : (2 : ℚ) ^ (-14 : ℤ) < 1 := by norm_num
          linarith
        simp [this, roundEven]
      · obtain ⟨m, k, hm, -, -, e⟩ := isHalf_small |n| (by rwa [abs_abs])
        rw [← Int.cast_abs, e]
        exact Proofs.Float.rnd_exact 11 (by norm_num) m k (by exact_mod_cast hm.le)
    simp only [nativeFromNumber, ofInt, hab, Number.round16, Number.round, hrd]
    rw [if_neg]
    rw [not_lt]; exact hle.trans (by norm_num)
  refine ⟨h3, ?_⟩
  have h4 := (C161_to_integer (fromInt n) lo hi).1 _ _ h1
  have ht : towardsZero (decide (n < 0)) |(n : ℚ)| = n := by
    have hfl : ⌊|(n : ℚ)|⌋ = |n| := by rw [← Int.cast_abs, Int.floor_intCast]
    rw [towardsZero, hfl]
    split_ifs with h
    · rw [abs_of_neg (of_decide_eq_true h)]; omega
    · rw [abs_of_nonneg (by simpa using h)]
  rw [ht] at h4
  rw [h3, ← h1]
  exact (h4 hlo hhi).2

example : nativeFromNumber (ofInt (-5)) = .fin true 5 ∧ nativeToInt (nativeFromNumber (ofInt (-5))) (-128) 127 = some (-5) := by
  have := C161_native_integer (-5) (by norm_num) (-128) 127 (by norm_num) (by norm_num)
  exact ⟨by rw [this.1]; norm_num, this.2⟩

end Verif.Props.HalfConvert
