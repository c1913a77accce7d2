import Verif.Model.Scalar
import Verif.Spec.Ieee
import Verif.Proofs.Float
import Mathlib.Data.Nat.Bitwise
import Mathlib.Tactic

/-!
# Lemmas about scalar functions
-/

namespace Verif.Proofs.Scalar

open Verif.Model.Scalar Verif.Spec.Float Verif.Spec.Ieee Verif.Proofs.Float

/-- A mask of `w` ones from bit `t` on tests that these bits are all ones. -/
theorem mask_iff (w t b : ℕ) : b &&& (2 ^ w - 1) * 2 ^ t = (2 ^ w - 1) * 2 ^ t ↔ b / 2 ^ t % 2 ^ w = 2 ^ w - 1 := by
  rw [← Nat.shiftLeft_eq]
  constructor
  · intro h
    apply Nat.eq_of_testBit_eq
    intro i
    rw [Nat.testBit_mod_two_pow, Nat.testBit_div_two_pow, Nat.testBit_two_pow_sub_one]
    by_cases hi : i < w
    · have := congrArg (fun n => n.testBit (i + t)) h
      simp only [Nat.testBit_and, Nat.testBit_shiftLeft, Nat.testBit_two_pow_sub_one] at this
      simpa [hi] using this
    · simp [hi]
  · intro h
    apply Nat.eq_of_testBit_eq
    intro i
    rw [Nat.testBit_and, Nat.testBit_shiftLeft, Nat.testBit_two_pow_sub_one]
    by_cases hi : t ≤ i ∧ i - t < w
    · have := congrArg (fun n => n.testBit (i - t)) h
      simp only [Nat.testBit_mod_two_pow, Nat.testBit_div_two_pow, Nat.testBit_two_pow_sub_one] at this
      rw [Nat.sub_add_cancel hi.1] at this
      simpa [hi.1, hi.2] using this
    · by_cases h1 : t ≤ i
      · have h2 : ¬ i - t < w := fun h => hi ⟨h1, h⟩
        simp [h1, h2]
      · simp [h1]

theorem special_iff (w t b : ℕ) : (interchange w t b).Special ↔ b / 2 ^ t % 2 ^ w = 2 ^ w - 1 := by
  unfold interchange
  simp only
  by_cases h : b / 2 ^ t % 2 ^ w = 2 ^ w - 1
  · rw [if_pos h]
    split_ifs <;> simp [Datum.Special, h]
  · rw [if_neg h]
    split_ifs <;> simp [Datum.Special, h]

theorem extended_iff (b : ℕ) : (extended b).Special ↔ b / 2 ^ 63 % 2 ^ 16 = 2 ^ 16 - 1 := by
  unfold extended
  simp only
  have h1 : b / 2 ^ 63 % 2 ^ 16 = b / 2 ^ 64 % 2 ^ 15 * 2 + b / 2 ^ 63 % 2 := by
    have : b / 2 ^ 64 = b / 2 ^ 63 / 2 := by rw [Nat.div_div_eq_div_mul, ← pow_succ]
    rw [this]
    generalize b / 2 ^ 63 = c
    omega
  rw [h1]
  have h2 : b / 2 ^ 63 % 2 < 2 := Nat.mod_lt _ (by norm_num)
  have h3 : b / 2 ^ 64 % 2 ^ 15 < 2 ^ 15 := Nat.mod_lt _ (by norm_num)
  generalize b / 2 ^ 63 % 2 = j at *
  generalize b / 2 ^ 64 % 2 ^ 15 = e at *
  split_ifs <;> simp only [Datum.Special, true_iff, false_iff] <;> omega

theorem extended_check (b : ℕ) :
    pack3 (byte b 9) (byte b 8) (byte b 7) &&& pack3 0x7F 0xFF 0x80 = pack3 0x7F 0xFF 0x80 ↔ b / 2 ^ 63 % 2 ^ 16 = 2 ^ 16 - 1 := by
  have e : pack3 0x7F 0xFF 0x80 = (2 ^ 16 - 1) * 2 ^ 7 := by norm_num [pack3]
  rw [e, mask_iff]
  have h9 : byte b 9 = b / 2 ^ 56 / 65536 % 256 := by
    rw [byte, Nat.div_div_eq_div_mul]; norm_num
  have h8 : byte b 8 = b / 2 ^ 56 / 256 % 256 := by
    rw [byte, Nat.div_div_eq_div_mul]; norm_num
  have h7 : byte b 7 = b / 2 ^ 56 % 256 := by rw [byte]
  have h6 : b / 2 ^ 63 = b / 2 ^ 56 / 128 := by
    rw [Nat.div_div_eq_div_mul]; norm_num
  rw [h9, h8, h7, h6, pack3]
  generalize b / 2 ^ 56 = c
  norm_num
  omega

/-- The relative error of rounding. -/
theorem rnd_rel (p : ℕ) (q : ℚ) : ∃ e : ℚ, |e| ≤ 1 / 2 ^ p ∧ rnd p q = q * (1 + e) := by
  by_cases h : q = 0
  · exact ⟨0, by simp, by rw [h, rnd_zero]; ring⟩
  · have hp : 0 < |q| := abs_pos.mpr h
    refine ⟨(rnd p q - q) / q, ?_, by field_simp; ring⟩
    rw [abs_div, div_le_div_iff₀ hp (by positivity), one_mul]
    exact rnd_err p q

theorem lerp_form (f : Fused) (p : ℕ) (a b t : ℚ) : ∃ e1 e2 e3 e4 : ℚ, |e1| ≤ 1 / 2 ^ p ∧ |e2| ≤ 1 / 2 ^ p ∧ |e3| ≤ 1 / 2 ^ p ∧
    |e4| ≤ 1 / 2 ^ p ∧ lerp f p a b t = (a * ((1 - t) * (1 + e1)) * (1 + e2) + b * t * (1 + e3)) * (1 + e4) := by
  have z : |(0 : ℚ)| ≤ 1 / 2 ^ p := by simp
  obtain ⟨e1, h1, r1⟩ := rnd_rel p (1 - t)
  obtain ⟨e2, h2, r2⟩ := rnd_rel p (a * rnd p (1 - t))
  obtain ⟨e3, h3, r3⟩ := rnd_rel p (b * t)
  cases f
  · obtain ⟨e4, h4, r4⟩ := rnd_rel p (rnd p (a * rnd p (1 - t)) + rnd p (b * t))
    exact ⟨e1, e2, e3, e4, h1, h2, h3, h4, by rw [lerp]; rw [r4, r2, r3, r1]⟩
  · obtain ⟨e4, h4, r4⟩ := rnd_rel p (a * rnd p (1 - t) + rnd p (b * t))
    exact ⟨e1, 0, e3, e4, h1, z, h3, h4, by rw [lerp]; rw [r4, r3, r1]; ring⟩
  · obtain ⟨e4, h4, r4⟩ := rnd_rel p (rnd p (a * rnd p (1 - t)) + b * t)
    exact ⟨e1, e2, 0, e4, h1, h2, z, h4, by rw [lerp]; rw [r4, r2, r1]; ring⟩

theorem prod3 (u e1 e2 e3 : ℚ) (h1 : |e1| ≤ u) (h2 : |e2| ≤ u) (h3 : |e3| ≤ u) (hu : u ≤ 1 / 8) :
    |(1 + e1) * (1 + e2) * (1 + e3) - 1| ≤ 4 * u := by
  have hu0 : 0 ≤ u := (abs_nonneg _).trans h1
  have i12 : |e1 * e2| ≤ u * u := by rw [abs_mul]; exact mul_le_mul h1 h2 (abs_nonneg _) hu0
  have i13 : |e1 * e3| ≤ u * u := by rw [abs_mul]; exact mul_le_mul h1 h3 (abs_nonneg _) hu0
  have i23 : |e2 * e3| ≤ u * u := by rw [abs_mul]; exact mul_le_mul h2 h3 (abs_nonneg _) hu0
  have i123 : |e1 * e2 * e3| ≤ u * u * u := by rw [abs_mul]; exact mul_le_mul i12 h3 (abs_nonneg _) (by positivity)
  rw [abs_le] at *
  have uu : u * u ≤ u / 8 := by nlinarith
  have uuu : u * u * u ≤ u / 64 := by nlinarith
  constructor <;> nlinarith

end Verif.Proofs.Scalar
