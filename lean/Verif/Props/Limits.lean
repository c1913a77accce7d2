import Verif.Proofs.Limits
import Verif.Model.FloatRay
/-!
# C192: limits, digits and named integers and characters
-/
namespace Verif.Props.Limits
open Verif.Spec.CInt Verif.Spec.Limits Verif.Spec.FloatFormat Verif.Spec.IeeeArith Verif.Spec.Float
open Verif.Model.Limits (int128Highest int128Lowest uint128Lowest uint128Highest float128Highest float128Lowest halfLowest halfHighest)
open Verif.Proofs.Limits

/-- C192: whatever the width of `int128_t`, `highest` is its greatest value, and `lowest` is computed without overflow and is its least. -/
theorem C192_signed (bits : ℕ) (h : 0 < bits) : IsGreatest (values ⟨bits, true⟩) (int128Highest bits) ∧
    ∃ v, int128Lowest bits = some v ∧ IsLeast (values ⟨bits, true⟩) v := by
  rw [highest_eq bits h, lowest_eq bits h]
  have := Int.pow_pos (n := (2 : ℤ)) (m := bits - 1) (by decide)
  refine ⟨⟨?_, fun v hv => ?_⟩, _, rfl, ?_, fun v hv => ?_⟩
  · constructor <;> simp [Ty.lo, Ty.hi]; omega
  · simpa [Ty.hi] using hv.2
  · constructor <;> simp [Ty.lo, Ty.hi]; omega
  · simpa [Ty.lo] using hv.1

/-- C192: so for `uint128_t`. -/
theorem C192_unsigned (bits : ℕ) (h : 0 < bits) : IsGreatest (values ⟨bits, false⟩) (uint128Highest bits) ∧
    IsLeast (values ⟨bits, false⟩) uint128Lowest := by
  rw [unsigned_eq bits h]
  have := Int.pow_pos (n := (2 : ℤ)) (m := bits) (by decide)
  refine ⟨⟨?_, fun v hv => ?_⟩, ?_, fun v hv => ?_⟩
  · constructor <;> simp [Ty.lo, Ty.hi]; omega
  · simpa [Ty.hi] using hv.2
  · constructor <;> simp [Ty.lo, Ty.hi, uint128Lowest]; omega
  · simpa [Ty.lo, uint128Lowest] using hv.1

example : (int128Highest 128, int128Lowest 128, uint128Highest 128) =
    (170141183460469231731687303715884105727, some (-170141183460469231731687303715884105728), 340282366920938463463374607431768211455) := by
  decide +kernel

/-- C192: `highest` of `float128_t`, though its literal is above, is the greatest finite number of the type, and `lowest` the least. -/
theorem C192_float128 : ∃ hi lo, value (float128Highest binary128) = some hi ∧ value (float128Lowest binary128) = some lo ∧
    IsGreatest (finite binary128) hi ∧ IsLeast (finite binary128) lo := by
  have hg : (0 : ℚ) ≤ binary128.greatest := by unfold binary128; positivity
  have hb : ∀ q ∈ finite binary128, |q| ≤ binary128.greatest := fun q hq => by
    obtain ⟨x, hx, hv⟩ := hq
    cases x with
    | nan => cases hv
    | inf s => cases hv
    | fin s a =>
      obtain ⟨⟨m, k, _, _, ha⟩, hle⟩ := hx
      have h0 : 0 ≤ a := by rw [ha]; positivity
      simp only [value, Option.some.injEq] at hv
      rw [← hv]
      cases s <;> simp [signed, abs_of_nonneg h0, hle]
  have hh : ∀ s, binary128.Has (.fin s binary128.greatest) := fun s =>
    ⟨⟨2 ^ 113 - 1, 16271, by norm_num [binary128], by norm_num [binary128], by norm_num [binary128]⟩, le_rfl⟩
  refine ⟨binary128.greatest, -binary128.greatest, ?_, ?_, ⟨⟨_, hh false, rfl⟩, fun q hq => ?_⟩, ⟨⟨_, hh true, rfl⟩, fun q hq => ?_⟩⟩
  · rw [float128_eq]; rfl
  · rw [float128Lowest, float128_eq]; rfl
  · exact (abs_le.1 (hb q hq)).2
  · exact (abs_le.1 (hb q hq)).1

/-- C192: the literal is above the greatest finite number, which it has to be rounded to. -/
example : binary128.greatest < 118973149535723176508575932662800702 / 10 ^ 35 * 10 ^ 4932 := by decide +kernel

/-- C192: `highest` and `lowest` of `half` are the greatest and the least finite number of 16 bits. -/
theorem C192_half : ∃ hi lo, value (value16 halfHighest) = some hi ∧ value (value16 halfLowest) = some lo ∧
    IsGreatest halves hi ∧ IsLeast halves lo := by
  refine ⟨65504, -65504, by decide +kernel, by decide +kernel, ⟨⟨halfHighest, by decide +kernel⟩, fun q hq => ?_⟩,
    ⟨⟨halfLowest, by decide +kernel⟩, fun q hq => ?_⟩⟩
  · exact (abs_le.1 (halves_le q hq)).2
  · exact (abs_le.1 (halves_le q hq)).1

/-- C192: `significand_digits` is the number of significant bits; `decimal_digits` says how many decimal digits survive being stored in a number of `significand_digits` bits and read back, and one more would not
(the exponent is unbounded: numbers that are neither too large nor subnormal). -/
theorem C192_digits : Model.Limits.digits.map (fun t => (t.1, t.2.1)) = significant ∧
    ∀ t ∈ Model.Limits.digits, Survives t.2.1 t.2.2 ∧ ¬ Survives t.2.1 (t.2.2 + 1) := by
  refine ⟨rfl, ?_⟩
  intro t ht
  simp only [Model.Limits.digits, List.mem_cons, List.not_mem_nil, or_false] at ht
  obtain rfl | rfl | rfl | rfl | rfl | rfl := ht
  · exact ⟨survives (by norm_num), collide 4093 4092 0 (by norm_num) (by norm_num) (by norm_num) (by decide +kernel)⟩
  · exact ⟨survives (by norm_num), collide 4093 4092 0 (by norm_num) (by norm_num) (by norm_num) (by decide +kernel)⟩
  · exact ⟨survives (by norm_num), collide 9999979 9999978 3 (by norm_num) (by norm_num) (by norm_num) (by decide +kernel)⟩
  · exact ⟨survives (by norm_num), collide 9999999999999997 9999999999999996 0 (by norm_num) (by norm_num) (by norm_num) (by decide +kernel)⟩
  · exact ⟨survives (by norm_num), collide 9999999999999999979 9999999999999999978 3 (by norm_num) (by norm_num) (by norm_num) (by decide +kernel)⟩
  · exact ⟨survives (by norm_num), collide 9999999999999999999999999999999999 9999999999999999999999999999999998 1 (by norm_num) (by norm_num) (by norm_num) (by decide +kernel)⟩

example : Decimal 6 (314159 / 100000) ∧ Decimal 6 (314160 / 100000) :=
  ⟨⟨314159, -5, by norm_num, by norm_num⟩, ⟨31416, -4, by norm_num, by norm_num⟩⟩

/-- C192: `default_epsilon`, computed by multiplications and a division, is less than a unit in the last place away from ten times the unit of the last decimal digit. -/
theorem C192_epsilon : ∀ t ∈ [(binary32, 6), (binary64, 15), (extended, 18), (binary128, 33)],
    ∃ e, value (Model.FloatRay.defaultEpsilon t.1 t.2) = some e ∧ |e - 10 / 10 ^ t.2| < ulp t.1.p (10 / 10 ^ t.2) := by
  intro t ht
  simp only [List.mem_cons, List.not_mem_nil, or_false] at ht
  obtain rfl | rfl | rfl | rfl := ht <;> exact epsilon_of (by decide +kernel)

/-- C192: it is even the nearest number for `float`, `long double` and `float128_t`, but not for `double`. -/
theorem C192_epsilon_nearest : (∀ t ∈ [(binary32, 6), (extended, 18), (binary128, 33)],
      Model.FloatRay.defaultEpsilon t.1 t.2 = t.1.round (.fin false (10 / 10 ^ t.2))) ∧
    Model.FloatRay.defaultEpsilon binary64 15 ≠ binary64.round (.fin false (10 / 10 ^ 15)) := by
  decide +kernel

/-- C192: in every character type, whatever its width and signedness, every named character compiles and is the code of that character. -/
theorem C192_characters (t : Ty) (h : 8 ≤ t.bits) : List.Forall₂
    (fun c s => c.1 = s.1 ∧ Model.Limits.braced t c.2 = some (s.2.toNat : ℤ)) Model.Limits.characters Spec.Limits.characters := by
  have e : ∀ n : ℕ, n ≤ 127 → Model.Limits.braced t (n : ℤ) = some (n : ℤ) := fun n hn => braced_eq t h n hn
  repeat' first | exact List.Forall₂.nil | refine List.Forall₂.cons ⟨rfl, e _ (by decide)⟩ ?_

/-- C192: and in every integer type every named integer is that integer. -/
theorem C192_integers (t : Ty) (h : 8 ≤ t.bits) : List.Forall₂
    (fun c s => c.1 = s.1 ∧ Model.Limits.braced t c.2 = some (s.2 : ℤ)) Model.Limits.integers Spec.Limits.integers := by
  have e : ∀ n : ℕ, n ≤ 127 → Model.Limits.braced t (n : ℤ) = some (n : ℤ) := fun n hn => braced_eq t h n hn
  repeat' first | exact List.Forall₂.nil | refine List.Forall₂.cons ⟨rfl, e _ (by decide)⟩ ?_

/-- C192: the named integers of `half` are those integers, its epsilon is the nearest to a thousandth, its infinities, zero and NaNs are such, and the signalling NaN,
unlike the other, has the first bit of its fraction clear. -/
theorem C192_half_constants : List.Forall₂ (fun c s => c.1 = s.1 ∧ value16 c.2 = .fin false (s.2 : ℚ)) Model.Limits.halfIntegers Spec.Limits.integers ∧
    value16 Model.Limits.halfEpsilon = Number.round16 (.fin false (1 / 1000)) ∧
    value16 Model.Limits.halfInfinity = .inf false ∧ value16 Model.Limits.halfNegativeInfinity = .inf true ∧
    value16 Model.Limits.halfNegativeZero = .fin true 0 ∧
    value16 Model.Limits.halfNan = .nan ∧ Model.Limits.halfNan.getLsbD 9 = true ∧
    value16 Model.Limits.halfSignalingNan = .nan ∧ Model.Limits.halfSignalingNan.getLsbD 9 = false := by
  refine ⟨?_, by decide +kernel, by decide +kernel, by decide +kernel, by decide +kernel, by decide +kernel, by decide, by decide +kernel, by decide⟩
  repeat' first | exact List.Forall₂.nil | refine List.Forall₂.cons ⟨rfl, by decide +kernel⟩ ?_

end Verif.Props.Limits
