import Verif.Spec.Limits
import Verif.Model.Limits
import Verif.Proofs.Float
namespace Verif.Proofs.Limits
open Verif.Spec.CInt Verif.Spec.Limits Verif.Spec.FloatFormat Verif.Spec.IeeeArith Verif.Spec.Float Verif.Spec.SmallFloat
open Verif.Model.CInt Verif.Model.Limits

theorem highest_eq (bits : ℕ) (h : 0 < bits) : int128Highest bits = 2 ^ (bits - 1) - 1 := by
  obtain ⟨n, rfl⟩ : ∃ n, bits = n + 1 := ⟨bits - 1, by omega⟩
  have hp := Int.pow_pos (n := (2 : ℤ)) (m := n) (by decide)
  have e : (2 : ℤ) ^ (n + 1) = 2 * 2 ^ n := by ring
  simp only [int128Highest, conv, Nat.add_sub_cancel, one_mul, e]
  simp only [Bool.false_eq_true, false_and, if_false, true_and]
  rw [Int.emod_eq_of_lt (by omega) (by omega : (2 : ℤ) ^ n < 2 * 2 ^ n), Int.emod_eq_of_lt (by omega) (by omega : (2 : ℤ) ^ n - 1 < 2 * 2 ^ n),
    Int.emod_eq_of_lt (by omega) (by omega : (2 : ℤ) ^ n - 1 < 2 * 2 ^ n), if_neg (by omega)]

theorem lowest_eq (bits : ℕ) (h : 0 < bits) : int128Lowest bits = some (-2 ^ (bits - 1)) := by
  have hp := Int.pow_pos (n := (2 : ℤ)) (m := bits - 1) (by decide)
  have h1 : (⟨bits, true⟩ : Ty).Has (-(2 ^ (bits - 1) - 1)) := by constructor <;> simp [Ty.lo, Ty.hi]; omega
  have h2 : (⟨bits, true⟩ : Ty).Has (-(2 ^ (bits - 1) - 1) - 1) := by constructor <;> simp [Ty.lo, Ty.hi]; omega
  simp only [int128Lowest, highest_eq bits h, checked, if_pos h1, if_pos h2, Option.bind_eq_bind, Option.bind_some, Option.some.injEq]
  ring

theorem unsigned_eq (bits : ℕ) (h : 0 < bits) : uint128Highest bits = 2 ^ bits - 1 := by
  obtain ⟨n, rfl⟩ : ∃ n, bits = n + 1 := ⟨bits - 1, by omega⟩
  have hp := Int.pow_pos (n := (2 : ℤ)) (m := n) (by decide)
  have e : (2 : ℤ) ^ (n + 1) = 2 * 2 ^ n := by ring
  simp only [uint128Highest, conv, highest_eq _ h, Nat.add_sub_cancel, e]
  simp only [Bool.false_eq_true, false_and, if_false]
  rw [Int.emod_eq_of_lt (by omega) (by omega : (2 : ℤ) ^ n - 1 < 2 * 2 ^ n), Int.emod_eq_of_lt (by omega) (by omega : 2 * ((2 : ℤ) ^ n - 1) < 2 * 2 ^ n),
    Int.emod_eq_of_lt (by omega) (by omega : 2 * ((2 : ℤ) ^ n - 1) + 1 < 2 * 2 ^ n)]
  ring

theorem float128_eq : float128Highest binary128 = .fin false binary128.greatest := by decide +kernel

theorem halves_le (q : ℚ) (hq : q ∈ halves) : |q| ≤ 65504 := by
  obtain ⟨b, hb⟩ := hq
  have key : ∀ s m, Spec.Half.half b = .fin s m → m ≤ 65504 * 2 ^ 24 := by
    intro s m h
    unfold Spec.Half.half Spec.Half.decode at h
    simp only at h
    have hf : b.toNat % 2 ^ 10 ≤ 2 ^ 10 - 1 := by omega
    split at h
    · split at h <;> cases h
    · next hx =>
      split at h
      · cases h; omega
      · cases h
        have he : b.toNat / 2 ^ 10 % 2 ^ 5 - 1 ≤ 29 := by omega
        calc _ ≤ (2 ^ 10 + (2 ^ 10 - 1)) * 2 ^ 29 := Nat.mul_le_mul (by omega) (Nat.pow_le_pow_right (by decide) he)
          _ ≤ _ := by norm_num
  unfold value16 at hb
  cases h : Spec.Half.half b with
  | nan => rw [h] at hb; cases hb
  | inf s => rw [h] at hb; cases hb
  | fin s m =>
    rw [h] at hb
    have hm : (m : ℚ) ≤ 65504 * 2 ^ 24 := by exact_mod_cast key s m h
    have h0 : (0 : ℚ) ≤ m / 2 ^ 24 := by positivity
    have hle : (m : ℚ) / 2 ^ 24 ≤ 65504 := by rw [div_le_iff₀ (by positivity)]; exact hm
    simp only [value, Option.some.injEq] at hb
    rw [← hb]
    cases s <;> simp only [signed, if_true, Bool.false_eq_true, if_false, abs_neg, abs_of_nonneg h0] <;> exact hle

/-- integers with at most `d` digits, in different units -/
theorem apart_le {d : ℕ} {m m' : ℤ} {n : ℕ} (hm : |m| < 10 ^ d) (hne : m ≠ m' * 10 ^ n) :
    |m| ≤ |m - m' * 10 ^ n| * 10 ^ d ∧ |m' * 10 ^ n| ≤ |m - m' * 10 ^ n| * 10 ^ d := by
  set N := m' * 10 ^ n
  have h1 : 1 ≤ |m - N| := Int.one_le_abs (sub_ne_zero.2 hne)
  have hD : (1 : ℤ) ≤ 10 ^ d := one_le_pow₀ (by norm_num)
  have a1 : |m| ≤ |m - N| * 10 ^ d := by nlinarith
  refine ⟨a1, ?_⟩
  by_cases hc : |N| ≤ |m|
  · exact hc.trans a1
  · have h2 : |N| - |m| ≤ |m - N| := by rw [abs_sub_comm]; exact abs_sub_abs_le_abs_sub N m
    have h3 : 0 ≤ (|N| - |m| - 1) * (10 ^ d - 1) := mul_nonneg (by omega) (by omega)
    nlinarith

theorem apart {d : ℕ} {q r : ℚ} (hq : Decimal d q) (hr : Decimal d r) (hne : r ≠ q) : |q| ≤ |q - r| * 10 ^ d := by
  obtain ⟨m, k, hm, rfl⟩ := hq
  obtain ⟨m', k', hm', rfl⟩ := hr
  have scale : ∀ (a b : ℤ) (i : ℤ) (n : ℕ), (b : ℚ) * 10 ^ (i + n) = ((b * 10 ^ n : ℤ) : ℚ) * 10 ^ i := fun a b i n => by
    rw [zpow_add₀ (by norm_num), zpow_natCast]; push_cast; ring
  rcases le_total k k' with h | h
  · obtain ⟨n, rfl⟩ := Int.le.dest h
    rw [scale 0 m' k n] at hne ⊢
    have := (apart_le hm (m' := m') (n := n) (fun e => hne (by rw [← e]))).1
    have hp : (0 : ℚ) < 10 ^ k := by positivity
    rw [← sub_mul, abs_mul, abs_mul, abs_of_pos hp]
    have h' : (|(m : ℚ)|) ≤ |(m : ℚ) - ((m' * 10 ^ n : ℤ) : ℚ)| * 10 ^ d := by exact_mod_cast this
    nlinarith
  · obtain ⟨n, rfl⟩ := Int.le.dest h
    rw [scale 0 m k' n] at hne ⊢
    have := (apart_le hm' (m' := m) (n := n) (fun e => hne (by rw [← e]))).2
    have hp : (0 : ℚ) < 10 ^ k' := by positivity
    rw [← sub_mul, abs_mul, abs_mul, abs_of_pos hp]
    have h' : (|((m * 10 ^ n : ℤ) : ℚ)|) ≤ |((m * 10 ^ n : ℤ) : ℚ) - (m' : ℚ)| * 10 ^ d := by rw [abs_sub_comm]; exact_mod_cast this
    nlinarith

theorem survives {p d : ℕ} (h : 2 * 10 ^ d < 2 ^ p) : Survives p d := by
  intro q hq r hr hne
  by_contra hc
  rw [not_lt] at hc
  have e := Float.rnd_err p q
  have a := apart hq hr hne
  have t : |q - r| ≤ 2 * |rnd p q - q| := by
    have := abs_sub_le q (rnd p q) r
    rw [abs_sub_comm q (rnd p q)] at this
    linarith
  have hP : (2 : ℚ) * 10 ^ d < 2 ^ p := by exact_mod_cast h
  have hd : (0 : ℚ) < 10 ^ d := by positivity
  rcases (abs_nonneg (rnd p q - q)).eq_or_lt with z | z
  · rw [← z] at t
    have : q - r = 0 := abs_eq_zero.1 (le_antisymm (by linarith) (abs_nonneg _))
    exact hne (by linarith)
  · nlinarith

theorem collide {p d : ℕ} (m m' : ℤ) (k : ℤ) (hm : |m| < 10 ^ d) (hm' : |m'| < 10 ^ d) (hne : m ≠ m') (h : rnd p (m * 10 ^ k) = rnd p (m' * 10 ^ k)) :
    ¬ Survives p d := by
  intro s
  have hn : (m : ℚ) * 10 ^ k ≠ m' * 10 ^ k := fun e => hne (by
    have := mul_right_cancel₀ (by positivity : (10 : ℚ) ^ k ≠ 0) e
    exact_mod_cast this)
  have h1 := s _ ⟨m, k, hm, rfl⟩ _ ⟨m', k, hm', rfl⟩ hn.symm
  have h2 := s _ ⟨m', k, hm', rfl⟩ _ ⟨m, k, hm, rfl⟩ hn
  rw [h] at h1
  linarith

theorem epsilon_of {x : Number} {P : ℚ → Prop} [DecidablePred P] (h : (match value x with | some e => decide (P e) | none => false) = true) :
    ∃ e, value x = some e ∧ P e := by
  cases hx : value x with
  | none => rw [hx] at h; cases h
  | some e => rw [hx] at h; exact ⟨e, rfl, of_decide_eq_true h⟩

theorem braced_eq (t : Ty) (h : 8 ≤ t.bits) (n : ℕ) (hn : n ≤ 127) : braced t (n : ℤ) = some (n : ℤ) := by
  have h7 : (2 : ℤ) ^ 7 ≤ 2 ^ (t.bits - 1) := pow_le_pow_right₀ (by norm_num) (by omega)
  have h8 : (2 : ℤ) ^ 8 ≤ 2 ^ t.bits := pow_le_pow_right₀ (by norm_num) h
  refine if_pos ⟨?_, ?_⟩
  · unfold Ty.lo; split <;> omega
  · unfold Ty.hi; split <;> omega

end Verif.Proofs.Limits
