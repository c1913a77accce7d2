import Mathlib.Analysis.SpecialFunctions.Sqrt
import Verif.Model.PackedFloat
import Verif.Proofs.FloatError
import Verif.Props.FloatLength
/-!
# Lemmas about unpacking
-/
namespace Verif.Proofs.PackedFloat
open Verif.Spec.IeeeArith Verif.Spec.FloatFormat Verif.Model.VectorStore Verif.Model.FloatVector Verif.Proofs.FloatVector Verif.Proofs.FloatError
open Verif.Model.PackedFloat Verif.Proofs.FloatLength Verif.Spec.FloatSqrt

/-- Normalizing is stable. -/
theorem direction {a b c A B C s S : ℝ} (hs : s = √(a ^ 2 + b ^ 2 + c ^ 2)) (hS : S = √(A ^ 2 + B ^ 2 + C ^ 2)) (s0 : 0 < s) (S0 : 0 < S) :
    |a / s - A / S| ≤ (|a - A| + (|a - A| + |b - B| + |c - C|)) / S := by
  have q1 : s ^ 2 = a ^ 2 + b ^ 2 + c ^ 2 := by rw [hs]; exact Real.sq_sqrt (by positivity)
  have q2 : S ^ 2 = A ^ 2 + B ^ 2 + C ^ 2 := by rw [hS]; exact Real.sq_sqrt (by positivity)
  have le1 : ∀ {t : ℝ}, t ^ 2 ≤ s ^ 2 → |t| ≤ s := fun h => abs_le_of_sq_le_sq h s0.le
  have le2 : ∀ {t : ℝ}, t ^ 2 ≤ S ^ 2 → |t| ≤ S := fun h => abs_le_of_sq_le_sq h S0.le
  have ha : |a| ≤ s := le1 (by nlinarith)
  have hb : |b| ≤ s := le1 (by nlinarith)
  have hc : |c| ≤ s := le1 (by nlinarith)
  have hA : |A| ≤ S := le2 (by nlinarith)
  have hB : |B| ≤ S := le2 (by nlinarith)
  have hC : |C| ≤ S := le2 (by nlinarith)
  have hd : |S - s| ≤ |a - A| + |b - B| + |c - C| := by
    have e : (S - s) * (S + s) = (A - a) * (A + a) + (B - b) * (B + b) + (C - c) * (C + c) := by nlinarith
    have t : |S - s| * (S + s) ≤ (|a - A| + |b - B| + |c - C|) * (S + s) := by
      have e' : |S - s| * (S + s) = |(S - s) * (S + s)| := by rw [abs_mul, abs_of_pos (show 0 < S + s by linarith)]
      rw [e', e]
      have one : ∀ x X : ℝ, |x| ≤ s → |X| ≤ S → |(X - x) * (X + x)| ≤ |x - X| * (S + s) := by
        intro x X h1 h2
        rw [abs_mul, abs_sub_comm]
        exact mul_le_mul_of_nonneg_left ((abs_add_le _ _).trans (by linarith)) (abs_nonneg _)
      have := abs_add_le ((A - a) * (A + a) + (B - b) * (B + b)) ((C - c) * (C + c))
      have := abs_add_le ((A - a) * (A + a)) ((B - b) * (B + b))
      have := one a A ha hA
      have := one b B hb hB
      have := one c C hc hC
      linarith
    exact le_of_mul_le_mul_right t (by linarith)
  have e : a / s - A / S = ((a - A) + (a / s) * (S - s)) / S := by field_simp; ring
  rw [e, abs_div, abs_of_pos S0]
  refine div_le_div_of_nonneg_right ((abs_add_le _ _).trans ?_) S0.le
  rw [abs_mul]
  have : |a / s| ≤ 1 := by rw [abs_div, abs_of_pos s0, div_le_one s0]; exact ha
  have := mul_le_mul this hd (abs_nonneg _) (by norm_num : (0 : ℝ) ≤ 1)
  linarith

/-- The length of a vector that is not within the octahedron. -/
theorem long {A B C : ℝ} (h : 1 ≤ |A| + |B| + |C|) : 4 / 7 ≤ √(A ^ 2 + B ^ 2 + C ^ 2) := by
  apply Real.le_sqrt_of_sq_le
  have a := sq_abs A
  have b := sq_abs B
  have c := sq_abs C
  rw [← a, ← b, ← c]
  nlinarith [sq_nonneg (|A| - |B|), sq_nonneg (|B| - |C|), sq_nonneg (|A| - |C|)]

/-- The numbers that only the format decides. -/
structure Good (f : Format) : Prop where
  usual : Usual f
  small : f.u ≤ 1 / 2 ^ 20
  tiny : 100 * f.tiny ≤ f.u
  wide : 2 ^ 64 ≤ f.greatest
  low : 2 ^ f.emin ≤ f.u / 16
  lower : (2 : ℚ) ^ f.emin ≤ 1 / 2 ^ 65

theorem good32 : Good binary32 := ⟨Props.FloatLength.usual32, by decide +kernel, by decide +kernel, by decide +kernel, by decide +kernel, by decide +kernel⟩
theorem good64 : Good binary64 := ⟨Props.FloatLength.usual64, by decide +kernel, by decide +kernel, by decide +kernel, by decide +kernel, by decide +kernel⟩

theorem cast_near {f : Format} (hf : Good f) {i : ℕ} (hi : i ≤ 2 ^ 63) : Near f 1 i 0 (cast f i) i := by
  have hu := u_pos f
  have hu20 := hf.small
  have i0 : (0 : ℚ) ≤ i := Nat.cast_nonneg i
  have hq : (i : ℚ) ≤ 2 ^ 63 := by exact_mod_cast hi
  have e : |rd f i - i| ≤ f.u * |(i : ℚ)| := by
    apply err_mult
    obtain ⟨d, hd⟩ := zpow_diff 0 (f.emin - f.p + 1) (by have := hf.usual.least; have := hf.usual.bits; omega)
    refine ⟨i * 2 ^ d, ?_⟩
    push_cast at hd ⊢
    rw [mul_assoc, ← hd]
    simp
  rw [abs_of_nonneg i0] at e
  refine ⟨rd f i, value_round f (by simp [value, signed]) ?_, by rw [abs_of_nonneg i0], le_rfl, by linarith⟩
  have h1 := abs_add_le (i : ℚ) (rd f i - i)
  rw [add_sub_cancel, abs_of_nonneg i0] at h1
  have h2 : f.u * (i : ℚ) ≤ 1 * i := mul_le_mul_of_nonneg_right (by linarith [show (1 : ℚ) / 2 ^ 20 ≤ 1 by norm_num]) i0
  have := hf.wide
  linarith

theorem rangeDiv_near {f : Format} (hf : Good f) {n d : ℕ} (h1 : 1 ≤ Model.PackedUnit.xRange n d) (h63 : Model.PackedUnit.xRange n d ≤ 2 ^ 63) :
    Near f 3 (1 / Model.PackedUnit.xRange n d) 0 (rangeDiv f n d) (1 / Model.PackedUnit.xRange n d) := by
  have hu := u_pos f
  have hu20 : f.u ≤ 1 / 8 := u_le hf.usual
  obtain ⟨z, z1, -, -, z4⟩ := cast_near hf h63
  unfold rangeDiv reciprocal Op.eval
  set R := Model.PackedUnit.xRange n d
  have R1 : (1 : ℚ) ≤ R := by exact_mod_cast h1
  have R63 : (R : ℚ) ≤ 2 ^ 63 := by exact_mod_cast h63
  have R0 : (0 : ℚ) < R := by linarith
  have z4' : |z - R| ≤ f.u * R := by
    have : ((1 + f.u) ^ 1 - 1) * (R : ℚ) + (1 + f.u) ^ 1 * 0 = f.u * R := by ring
    linarith
  have ⟨zl, zh⟩ := abs_le.1 z4'
  have uR : f.u * R ≤ 1 / 8 * R := mul_le_mul_of_nonneg_right hu20 R0.le
  have z0 : 0 < z := by linarith
  have zinv : 1 / 2 ^ 64 ≤ 1 / z := one_div_le_one_div_of_le z0 (by linarith)
  have e := err_normal f (z := 1 / z) (by
    rw [abs_of_pos (by positivity)]
    have := hf.lower
    have : (1 : ℚ) / 2 ^ 65 ≤ 1 / 2 ^ 64 := by norm_num
    linarith)
  rw [abs_of_pos (show 0 < 1 / z by positivity)] at e
  have bound : |rd f (1 / z) - 1 / R| ≤ ((1 + f.u) ^ 3 - 1) * (1 / R) := by
    have t := abs_add_le (rd f (1 / z) - 1 / z) (1 / z - 1 / R)
    rw [sub_add_sub_cancel] at t
    have d1 : (1 : ℚ) / z ≤ (1 + 8 / 7 * f.u) * (1 / R) := by
      rw [mul_one_div, div_le_div_iff₀ z0 R0]
      have : (1 + 8 / 7 * f.u) * ((1 - f.u) * R) ≤ (1 + 8 / 7 * f.u) * z := mul_le_mul_of_nonneg_left (by linarith) (by positivity)
      have e : (1 + 8 / 7 * f.u) * ((1 - f.u) * R) = R + f.u * (1 / 7 - 8 / 7 * f.u) * R := by ring
      have : 0 ≤ f.u * (1 / 7 - 8 / 7 * f.u) * R := mul_nonneg (mul_nonneg hu.le (by linarith)) R0.le
      linarith
    have d2 : (1 - f.u) * (1 / R) ≤ 1 / z := by
      rw [mul_one_div, div_le_div_iff₀ R0 z0]
      have : (1 - f.u) * z ≤ (1 - f.u) * ((1 + f.u) * R) := mul_le_mul_of_nonneg_left (by linarith) (by linarith)
      have e : (1 - f.u) * ((1 + f.u) * R) = R - f.u ^ 2 * R := by ring
      have : 0 ≤ f.u ^ 2 * R := by positivity
      linarith
    have r0 : (0 : ℚ) < 1 / R := by positivity
    have d3 : |1 / z - 1 / R| ≤ 8 / 7 * f.u * (1 / R) := abs_le.2 ⟨by nlinarith, by nlinarith⟩
    have d4 : f.u * (1 / z) ≤ f.u * ((1 + 8 / 7 * f.u) * (1 / R)) := mul_le_mul_of_nonneg_left d1 hu.le
    have e3 : ((1 + f.u) ^ 3 - 1) * (1 / (R : ℚ)) = 3 * f.u * (1 / R) + 3 * f.u ^ 2 * (1 / R) + f.u ^ 3 * (1 / R) := by ring
    have p2 : 0 ≤ f.u ^ 2 * (1 / (R : ℚ)) := by positivity
    have p3 : 0 ≤ f.u ^ 3 * (1 / (R : ℚ)) := by positivity
    have p1 : 0 ≤ f.u * (1 / (R : ℚ)) := by positivity
    nlinarith
  have r1 : (1 : ℚ) / R ≤ 1 := by rw [div_le_one R0]; exact R1
  refine ⟨rd f (1 / z), value_round f (value_div (by simp [value, signed]) z1 z0.ne') ?_, by rw [abs_of_pos (by positivity)], le_rfl, by linarith⟩
  have := abs_add_le (1 / (R : ℚ)) (rd f (1 / z) - 1 / R)
  rw [add_sub_cancel, abs_of_pos (show (0 : ℚ) < 1 / R by positivity)] at this
  have g : (1 + f.u) ^ 3 ≤ (1 + 1 / 8) ^ 3 := pow_le_pow_left₀ (by linarith) (by linarith) 3
  have : ((1 + f.u) ^ 3 - 1) * (1 / (R : ℚ)) ≤ ((1 + 1 / 8) ^ 3 - 1) * 1 := mul_le_mul (by linarith) r1 (by positivity) (by norm_num)
  have := hf.wide
  norm_num at *
  linarith

/-- Powers and underflow, where few operations are done. -/
theorem room {f : Format} (hf : Good f) {k : ℕ} (hk : k ≤ 10) {A : ℚ} (hA0 : 0 ≤ A) (hA : A ≤ 100) : (1 + f.u) ^ k * A ≤ f.greatest := by
  have hu := u_pos f
  have g : (1 + f.u) ^ k ≤ (1 + f.u) ^ 10 := pow_le_pow_right₀ (by linarith) hk
  have g2 : (1 + f.u) ^ 10 ≤ (1 + 1 / 8) ^ 10 := pow_le_pow_left₀ (by linarith) (by linarith [u_le hf.usual]) 10
  have : (1 + f.u) ^ k * A ≤ (1 + 1 / 8) ^ 10 * 100 := mul_le_mul (g.trans g2) hA hA0 (by positivity)
  have := hf.wide
  norm_num at *
  linarith

theorem tiny_le {f : Format} (hf : Good f) : f.tiny ≤ 1 / 100 := by
  have := hf.tiny
  have := u_le hf.usual
  linarith

/-- A coordinate. -/
theorem coordinate_near {f : Format} (hf : Good f) {n d i : ℕ} (h1 : 1 ≤ Model.PackedUnit.xRange n d) (h63 : Model.PackedUnit.xRange n d ≤ 2 ^ 63)
    (hi : i ≤ Model.PackedUnit.xRange n d) (k : Bool) :
    Near f 5 ((i : ℚ) / Model.PackedUnit.xRange n d) f.tiny (product f (cast f i, rangeDiv f n d) k) ((i : ℚ) / Model.PackedUnit.xRange n d) := by
  have a := cast_near hf (hi.trans h63)
  have b := rangeDiv_near hf h1 h63
  have R1 : (0 : ℚ) < Model.PackedUnit.xRange n d := by exact_mod_cast h1
  have x1 : (i : ℚ) / Model.PackedUnit.xRange n d ≤ 1 := by rw [div_le_one R1]; exact_mod_cast hi
  have x0 : 0 ≤ (i : ℚ) / Model.PackedUnit.xRange n d := by positivity
  have ht := tiny_pos f
  have := a.product b k (by
    simp only [mul_zero, zero_add, add_zero, mul_one_div]
    exact room hf (by norm_num) (by linarith) (by linarith [tiny_le hf]))
  simpa only [mul_zero, zero_add, add_zero, mul_one_div] using this

/-- A coordinate with its sign. -/
theorem sign_near {f : Format} (hf : Good f) {n i b k m : ℕ} {M : ℚ} {x : Number} {X : ℚ} (h : Near f k M (m * f.tiny) x X) (hk : k ≤ 8) (hm : m ≤ 8) (hM : M ≤ 2) :
    Near f (k + 1) M (((m + 1 : ℕ) : ℚ) * f.tiny) (Op.mul.eval f (signNumber n i b) x) (Model.PackedUnit.sign n i b * X) := by
  have ht := tiny_pos f
  have s : Near f 0 1 0 (signNumber n i b) (Model.PackedUnit.sign n i b) := by
    refine ⟨Model.PackedUnit.sign n i b, ?_, ?_, le_rfl, by simp⟩
    · unfold signNumber value signed Model.PackedUnit.sign; rfl
    · unfold Model.PackedUnit.sign; split <;> simp
  obtain ⟨-, -, m0, t0, -⟩ := id h
  have M0 : 0 ≤ M := (abs_nonneg _).trans m0
  have mq : (m : ℚ) ≤ 8 := by exact_mod_cast hm
  have mt : (m : ℚ) * f.tiny ≤ 8 * (1 / 100) := mul_le_mul mq (tiny_le hf) ht.le (by norm_num)
  have := (s.mul h).round (by
    simp only [zero_mul, mul_zero, add_zero, one_mul, zero_add]
    exact room hf (by omega) (by linarith) (by linarith [tiny_le hf]))
  simp only [zero_mul, mul_zero, add_zero, one_mul, zero_add] at this
  refine this.mono le_rfl le_rfl (le_of_eq ?_)
  push_cast; ring

/-- The difference from one of a coordinate. -/
theorem rest_near {f : Format} (hf : Good f) {k m : ℕ} {M : ℚ} {x y : Number} {X Y : ℚ} {N : ℚ} (h : Near f k M (m * f.tiny) x X)
    (h' : Near f 5 N f.tiny y Y) (hk : k ≤ 7) (hm : m ≤ 4) (hM : M + N ≤ 3) :
    Near f (max k 5 + 1) (M + N) (((m + 2 : ℕ) : ℚ) * f.tiny) (Op.sub.eval f x y) (X - Y) := by
  have ht := tiny_pos f
  have M0 : 0 ≤ M := by obtain ⟨-, -, m0, -⟩ := h; exact (abs_nonneg _).trans m0
  have N0 : 0 ≤ N := by obtain ⟨-, -, m0, -⟩ := h'; exact (abs_nonneg _).trans m0
  have mq : (m : ℚ) ≤ 4 := by exact_mod_cast hm
  have mt : (m : ℚ) * f.tiny ≤ 4 * (1 / 100) := mul_le_mul mq (tiny_le hf) ht.le (by norm_num)
  have m0 : (0 : ℚ) ≤ m * f.tiny := by positivity
  have := ((h.mono (le_max_left k 5) le_rfl le_rfl).sub (h'.mono (le_max_right k 5) le_rfl le_rfl)).round
    (room hf (by omega) (by linarith) (by linarith [tiny_le hf]))
  refine this.mono le_rfl le_rfl (le_of_eq ?_)
  push_cast; ring

/-- What an error bound of this kind amounts to. -/
theorem Near.value {f : Format} (hf : Good f) {k m : ℕ} {M : ℚ} {x : Number} {X : ℚ} (h : Near f k M (m * f.tiny) x X) (hk : k ≤ 8) (hm : m ≤ 8) {j : ℕ} (hM : M ≤ j) (hj : j ≤ 2) :
    ∃ z, value x = some z ∧ |z - X| ≤ (((k * j : ℕ) : ℚ) + 1) * f.u := by
  obtain ⟨z, h1, h2, h3, h4⟩ := h
  have hu := u_pos f
  have hs := hf.small
  have ht := tiny_pos f
  refine ⟨z, h1, h4.trans ?_⟩
  have mq : (m : ℚ) ≤ 8 := by exact_mod_cast hm
  have mt : (m : ℚ) * f.tiny ≤ 8 * f.tiny := mul_le_mul_of_nonneg_right mq ht.le
  have kq : (k : ℚ) ≤ 8 := by exact_mod_cast hk
  have jq : (j : ℚ) ≤ 2 := by exact_mod_cast hj
  have M0 : 0 ≤ M := (abs_nonneg _).trans h2
  have u2 : f.u ^ 2 ≤ f.u * (1 / 2 ^ 20) := by rw [pow_two]; exact mul_le_mul_of_nonneg_left hs hu.le
  have p : (1 + f.u) ^ k ≤ 1 + k * f.u + 256 * f.u ^ 2 := by
    have := hu.le
    have u1 : f.u ≤ 1 := hs.trans (by norm_num)
    have l : ∀ i, 2 ≤ i → f.u ^ i ≤ f.u ^ 2 := fun i hi => pow_le_pow_of_le_one hu.le u1 hi
    have := l 3 (by norm_num); have := l 4 (by norm_num); have := l 5 (by norm_num); have := l 6 (by norm_num); have := l 7 (by norm_num); have := l 8 (by norm_num)
    have := pow_pos hu 2
    have := pow_pos hu 3
    interval_cases k <;> push_cast <;> ring_nf at * <;> linarith
  have p2 : (1 + f.u) ^ k ≤ 2 := by
    have : (k : ℚ) * f.u ≤ 8 * (1 / 2 ^ 20) := mul_le_mul kq hs hu.le (by norm_num)
    have : f.u * (1 / 2 ^ 20) ≤ 1 / 2 ^ 20 * (1 / 2 ^ 20) := mul_le_mul_of_nonneg_right hs (by norm_num)
    norm_num at *
    linarith
  have a : ((1 + f.u) ^ k - 1) * M ≤ (k * f.u + 256 * f.u ^ 2) * j := mul_le_mul (by linarith) hM M0 (by positivity)
  have b : (1 + f.u) ^ k * (m * f.tiny) ≤ 2 * (8 * f.tiny) := mul_le_mul p2 mt h3 (by norm_num)
  have c : 256 * f.u ^ 2 * j ≤ 256 * f.u ^ 2 * 2 := mul_le_mul_of_nonneg_left jq (by positivity)
  have := hf.tiny
  push_cast
  norm_num at *
  linarith

/-- Normalizing numbers with small errors. -/
theorem finish {f : Format} (hf : Good f) {a b c A B C w : ℚ} (w0 : 0 < w) (hA : |a - A| ≤ 18 * f.u) (hs : |a - A| + |b - B| + |c - C| ≤ 34 * f.u)
    (h1 : 1 ≤ |A| + |B| + |C|) (lo : 1 - 10 * f.u ≤ w ^ 2 * (a ^ 2 + b ^ 2 + c ^ 2)) (hi : w ^ 2 * (a ^ 2 + b ^ 2 + c ^ 2) ≤ 1 + 10 * f.u) :
    |(rd f (a * w) : ℝ) - A / √(A ^ 2 + B ^ 2 + C ^ 2)| ≤ 104 * f.u := by
  have uR : (0 : ℝ) < f.u := by exact_mod_cast u_pos f
  have u20 : (f.u : ℝ) ≤ 1 / 2 ^ 20 := by
    have : (f.u : ℝ) ≤ ((1 / 2 ^ 20 : ℚ) : ℝ) := Rat.cast_le.2 hf.small
    norm_num at this ⊢
    linarith
  have tu : (100 : ℝ) * f.tiny ≤ f.u := by exact_mod_cast hf.tiny
  have e : |(rd f (a * w) : ℝ) - a * w| ≤ f.u * |(a : ℝ) * w| + f.tiny := by exact_mod_cast err f (a * w)
  have hA' : |(a : ℝ) - A| ≤ 18 * f.u := by exact_mod_cast hA
  have hs' : |(a : ℝ) - A| + |(b : ℝ) - B| + |(c : ℝ) - C| ≤ 34 * f.u := by exact_mod_cast hs
  have h1' : (1 : ℝ) ≤ |(A : ℝ)| + |(B : ℝ)| + |(C : ℝ)| := by exact_mod_cast h1
  have lo' : (1 : ℝ) - 10 * f.u ≤ w ^ 2 * (a ^ 2 + b ^ 2 + c ^ 2) := by exact_mod_cast lo
  have hi' : (w : ℝ) ^ 2 * (a ^ 2 + b ^ 2 + c ^ 2) ≤ 1 + 10 * f.u := by exact_mod_cast hi
  have w0' : (0 : ℝ) < w := by exact_mod_cast w0
  generalize (rd f (a * w) : ℝ) = r at *
  generalize (f.u : ℝ) = u at *
  generalize (f.tiny : ℝ) = t at *
  generalize (a : ℝ) = a at *
  generalize (b : ℝ) = b at *
  generalize (c : ℝ) = c at *
  generalize (A : ℝ) = A at *
  generalize (B : ℝ) = B at *
  generalize (C : ℝ) = C at *
  generalize (w : ℝ) = w at *
  have S4 := long h1'
  set S := √(A ^ 2 + B ^ 2 + C ^ 2) with hS
  have q0 : 0 < a ^ 2 + b ^ 2 + c ^ 2 := by
    by_contra h
    have : w ^ 2 * (a ^ 2 + b ^ 2 + c ^ 2) ≤ 0 := mul_nonpos_of_nonneg_of_nonpos (by positivity) (not_lt.1 h)
    norm_num at *
    linarith
  set s := √(a ^ 2 + b ^ 2 + c ^ 2) with hs2
  have s0 : 0 < s := Real.sqrt_pos.2 q0
  have ss : s ^ 2 = a ^ 2 + b ^ 2 + c ^ 2 := Real.sq_sqrt q0.le
  rw [← ss, ← mul_pow] at lo' hi'
  have ws0 : 0 < w * s := by positivity
  have ws : |w * s - 1| ≤ 10 * u := by
    rw [abs_le]
    constructor
    · nlinarith
    · nlinarith
  have as : |a / s| ≤ 1 := by
    rw [abs_div, abs_of_pos s0, div_le_one s0]
    exact abs_le_of_sq_le_sq (by rw [ss]; nlinarith) s0.le
  have d1 : |a * w - a / s| ≤ 10 * u := by
    have : a * w - a / s = (a / s) * (w * s - 1) := by field_simp
    rw [this, abs_mul]
    have := mul_le_mul as ws (abs_nonneg _) (by norm_num : (0 : ℝ) ≤ 1)
    linarith
  have d2 := direction hs2 hS s0 (by linarith)
  have d3 : (|a - A| + (|a - A| + |b - B| + |c - C|)) / S ≤ 52 * u / (4 / 7) :=
    div_le_div₀ (by linarith) (by linarith) (by norm_num) S4
  have d4 : |a * w| ≤ 1 + 10 * u := by
    have := abs_add_le (a / s) (a * w - a / s)
    rw [add_sub_cancel] at this
    linarith
  have d5 : u * |a * w| ≤ u * (1 + 10 * u) := mul_le_mul_of_nonneg_left d4 uR.le
  have d6 : u * u ≤ u * (1 / 2 ^ 20) := mul_le_mul_of_nonneg_left u20 uR.le
  have t1 := abs_add_le (r - a * w) (a * w - A / S)
  have t2 := abs_add_le (a * w - a / s) (a / s - A / S)
  rw [sub_add_sub_cancel] at t1 t2
  norm_num at d3 d6 ⊢
  linarith

end Verif.Proofs.PackedFloat
