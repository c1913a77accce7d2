import Verif.Model.Constants
import Verif.Spec.Constants
import Verif.Spec.Ieee
import Verif.Proofs.Float
import Verif.Proofs.ConstInverse
import Mathlib.Analysis.Complex.ExponentialBounds

/-!
# Lemmas about constants: enclosures of real numbers, and the nearest number of a type
-/

namespace Verif.Proofs.Constants

open Verif.Spec.Float Verif.Spec.Constants Verif.Proofs.Float Verif.Model.Constants Real

/-! ## The nearest -/

theorem roundEven_nearest (y : ℚ) (n : ℤ) : |(roundEven y : ℚ) - y| ≤ |(n : ℚ) - y| := by
  by_cases h : n = roundEven y
  · rw [h]
  · have h1 := roundEven_near y
    have h2 : (1 : ℚ) ≤ |(n : ℚ) - roundEven y| := by
      rw [← Int.cast_sub, ← Int.cast_abs]
      exact_mod_cast Int.one_le_abs (sub_ne_zero.mpr h)
    have h3 : |(n : ℚ) - roundEven y| ≤ |(n : ℚ) - y| + |(roundEven y : ℚ) - y| := by
      rw [abs_sub_comm (roundEven y : ℚ) y]
      have := abs_add_le ((n : ℚ) - y) (y - roundEven y)
      rwa [sub_add_sub_cancel] at this
    linarith

theorem rnd_isFloat (p : ℕ) (hp : 1 ≤ p) (q : ℚ) : IsFloat p (rnd p q) := by
  unfold rnd
  split_ifs with h
  · exact ⟨0, 0, by positivity, by simp⟩
  · refine ⟨roundEven (q / ulp p q), Int.log 2 |q| - p + 1, ?_, rfl⟩
    have hu := ulp_pos p q
    have hb := log_bounds h
    have hq : |q / ulp p q| ≤ 2 ^ p := by
      rw [abs_div, abs_of_pos hu, div_le_iff₀ hu, mul_comm, ulp_eq]
      rw [zpow_add_one₀ (by norm_num)] at hb
      linarith [hb.2]
    rw [abs_le] at hq ⊢
    constructor
    · exact le_roundEven (by push_cast; exact hq.1)
    · exact roundEven_le (by push_cast; exact hq.2)

theorem rnd_near_pos (p : ℕ) (hp : 1 ≤ p) {q : ℚ} (hq : 0 < q) (f : ℚ) (hf : IsFloat p f) : |rnd p q - q| ≤ |f - q| := by
  have hu := ulp_pos p q
  have hb := log_bounds hq.ne'
  have habs : |q| = q := abs_of_pos hq
  -- multiples of the unit in the last place
  have key (n : ℤ) : |rnd p q - q| ≤ |n * ulp p q - q| := by
    have := roundEven_nearest (q / ulp p q) n
    rw [rnd, if_neg hq.ne']
    have e (m : ℤ) : (m : ℚ) * ulp p q - q = (m - q / ulp p q) * ulp p q := by
      rw [sub_mul, div_mul_cancel₀ _ hu.ne']
    rw [e, e, abs_mul, abs_mul]
    exact mul_le_mul_of_nonneg_right this (abs_nonneg _)
  -- the start of the binade is one
  have hs : ((2 ^ (p - 1) : ℤ) : ℚ) * ulp p q = 2 ^ (Int.log 2 |q|) := by
    have := ulp_eq p q
    obtain ⟨k, rfl⟩ : ∃ k, p = k + 1 := ⟨p - 1, by omega⟩
    rw [pow_succ] at this
    push_cast
    linarith
  obtain ⟨m, k, hm, rfl⟩ := hf
  rcases lt_or_ge ((m : ℚ) * 2 ^ k) (2 ^ (Int.log 2 |q|)) with hl | hl
  · have := key (2 ^ (p - 1))
    rw [hs] at this
    rw [habs] at hb
    rw [habs] at this hl
    refine this.trans ?_
    rw [abs_of_nonpos (by linarith [hb.1]), abs_of_nonpos (by linarith [hb.1])]
    linarith
  · by_cases hk : Int.log 2 |q| - p + 1 ≤ k
    · obtain ⟨d, hd⟩ : ∃ d : ℕ, k = (Int.log 2 |q| - p + 1) + d := ⟨(k - (Int.log 2 |q| - p + 1)).toNat, by omega⟩
      have : (m : ℚ) * 2 ^ k = ((m * 2 ^ d : ℤ) : ℚ) * ulp p q := by
        rw [hd, ulp, zpow_add₀ (by norm_num : (2 : ℚ) ≠ 0) _ (d : ℤ), zpow_natCast]
        push_cast
        ring
      rw [this]
      exact key _
    · have h2 : (m : ℚ) * 2 ^ k ≤ 2 ^ (Int.log 2 |q|) := by
        have h3 : (m : ℚ) ≤ 2 ^ p := by
          have := (le_abs_self m).trans hm
          exact_mod_cast this
        have h4 : (2 : ℚ) ^ k ≤ 2 ^ (Int.log 2 |q| - p) := zpow_le_zpow_right₀ (by norm_num) (by omega)
        have h5 : (2 : ℚ) ^ p * 2 ^ (Int.log 2 |q| - p) = 2 ^ (Int.log 2 |q|) := by
          rw [← zpow_natCast, ← zpow_add₀ (by norm_num)]; congr 1; ring
        rw [← h5]
        calc (m : ℚ) * 2 ^ k ≤ 2 ^ p * 2 ^ k := mul_le_mul_of_nonneg_right h3 (by positivity)
          _ ≤ _ := mul_le_mul_of_nonneg_left h4 (by positivity)
      rw [le_antisymm h2 hl, ← hs]
      exact key _

theorem rnd_near (p : ℕ) (hp : 1 ≤ p) (q f : ℚ) (hf : IsFloat p f) : |rnd p q - q| ≤ |f - q| := by
  rcases lt_trichotomy q 0 with h | h | h
  · obtain ⟨m, k, hm, rfl⟩ := hf
    have := rnd_near_pos p hp (q := -q) (by linarith) (-(m * 2 ^ k)) ⟨-m, k, by rwa [abs_neg], by push_cast; ring⟩
    rw [rnd_neg] at this
    rw [← abs_neg, ← abs_neg (_ - q)]
    convert this using 2 <;> ring
  · rw [h, rnd_zero]; simp
  · exact rnd_near_pos p hp h f hf

/-! ## Enclosures -/

/-- `v` is between `l` and `h`. -/
structure In (v : ℝ) (l h : ℚ) : Prop where
  lo : (l : ℝ) ≤ v
  hi : v ≤ h

theorem In.one : In 1 1 1 := ⟨by norm_num, by norm_num⟩

theorem In.nat (n : ℕ) [n.AtLeastTwo] : In (OfNat.ofNat n : ℝ) (OfNat.ofNat n) (OfNat.ofNat n) := by
  constructor <;> simp

theorem In.mul {a b : ℝ} {al ah bl bh : ℚ} (ha : In a al ah) (hb : In b bl bh) (h1 : 0 ≤ al := by decide +kernel)
    (h2 : 0 ≤ bl := by decide +kernel) : In (a * b) (al * bl) (ah * bh) := by
  have h1' : (0 : ℝ) ≤ al := by exact_mod_cast h1
  have h2' : (0 : ℝ) ≤ bl := by exact_mod_cast h2
  constructor
  · push_cast
    exact mul_le_mul ha.lo hb.lo h2' (h1'.trans ha.lo)
  · push_cast
    exact mul_le_mul ha.hi hb.hi (h2'.trans hb.lo) ((h1'.trans ha.lo).trans ha.hi)

theorem In.div {a b : ℝ} {al ah bl bh : ℚ} (ha : In a al ah) (hb : In b bl bh) (h1 : 0 ≤ al := by decide +kernel)
    (h2 : 0 < bl := by decide +kernel) : In (a / b) (al / bh) (ah / bl) := by
  have h1' : (0 : ℝ) ≤ al := by exact_mod_cast h1
  have h2' : (0 : ℝ) < bl := by exact_mod_cast h2
  constructor
  · push_cast
    exact div_le_div₀ (h1'.trans ha.lo) ha.lo (h2'.trans_le hb.lo) hb.hi
  · push_cast
    exact div_le_div₀ ((h1'.trans ha.lo).trans ha.hi) ha.hi h2' hb.lo

theorem In.sqrt {a : ℝ} {al ah : ℚ} (ha : In a al ah) (l h : ℚ) (h1 : 0 ≤ l := by decide +kernel)
    (h0 : 0 ≤ h := by decide +kernel) (h2 : l * l ≤ al := by decide +kernel) (h3 : ah ≤ h * h := by decide +kernel) :
    In (√a) l h := by
  have h1' : (0 : ℝ) ≤ l := by exact_mod_cast h1
  have h0' : (0 : ℝ) ≤ h := by exact_mod_cast h0
  have h2' : (l : ℝ) * l ≤ al := by exact_mod_cast h2
  have h3' : (ah : ℝ) ≤ h * h := by exact_mod_cast h3
  constructor
  · apply Real.le_sqrt_of_sq_le
    rw [sq]
    exact h2'.trans ha.lo
  · apply Real.sqrt_le_iff.mpr
    rw [sq]
    exact ⟨h0', ha.hi.trans h3'⟩

/-- An enclosure on which rounding is constant gives the nearest. -/
theorem In.nearest {v : ℝ} {l h : ℚ} (hv : In v l h) (p : ℕ) (hp : 1 ≤ p) {x : ℚ} (h1 : rnd p l = x) (h2 : rnd p h = x) :
    Nearest p v x := by
  refine ⟨by rw [← h1]; exact rnd_isFloat p hp l, fun f hf => ?_⟩
  have a1 := rnd_near p hp l f hf
  have a2 := rnd_near p hp h f hf
  rw [h1] at a1
  rw [h2] at a2
  rw [← sq_le_sq] at a1 a2 ⊢
  have b1 : ((x : ℝ) - l) ^ 2 ≤ (f - l) ^ 2 := by exact_mod_cast a1
  have b2 : ((x : ℝ) - h) ^ 2 ≤ (f - h) ^ 2 := by exact_mod_cast a2
  have c1 := hv.lo
  have c2 := hv.hi
  rcases le_total (x : ℝ) f with hxf | hxf
  · nlinarith [mul_nonneg (sub_nonneg.mpr hxf) (sub_nonneg.mpr c2)]
  · nlinarith [mul_nonneg (sub_nonneg.mpr hxf) (sub_nonneg.mpr c1)]

/-- A number that is closer on the whole enclosure shows that another is not the nearest. -/
theorem In.not_nearest {v : ℝ} {l h : ℚ} (hv : In v l h) (p : ℕ) {x f : ℚ} (hf : IsFloat p f)
    (h1 : 0 < (x - f) * (x + f - 2 * l)) (h2 : 0 < (x - f) * (x + f - 2 * h)) : ¬ Nearest p v x := by
  rintro ⟨-, hn⟩
  have a := hn f hf
  rw [← sq_le_sq] at a
  have b1 : (0 : ℝ) < (x - f) * (x + f - 2 * l) := by exact_mod_cast h1
  have b2 : (0 : ℝ) < (x - f) * (x + f - 2 * h) := by exact_mod_cast h2
  have c1 := hv.lo
  have c2 := hv.hi
  rcases le_total (x : ℝ) f with hxf | hxf
  · nlinarith [mul_nonneg (sub_nonneg.mpr hxf) (sub_nonneg.mpr c1)]
  · nlinarith [mul_nonneg (sub_nonneg.mpr hxf) (sub_nonneg.mpr c2)]

/-- An enclosure close to a number with `p` significant bits. -/
theorem In.close {v : ℝ} {l h : ℚ} (hv : In v l h) (p n : ℕ) (hp : 1 ≤ p) {x : ℚ} (hx : rnd p x = x) (h0 : 0 < l)
    (h1 : x - l < n * 2 ^ (Int.log 2 l + 1 - p)) (h2 : h - x < n * 2 ^ (Int.log 2 l + 1 - p)) : Close p n v x := by
  refine ⟨by rw [← hx]; exact rnd_isFloat p hp x, Int.log 2 l, ?_, ?_⟩
  · have := (log_bounds h0.ne').1
    rw [abs_of_pos h0] at this
    refine le_trans ?_ hv.lo
    have h3 := (Rat.cast_le (K := ℝ)).mpr this
    rwa [Rat.cast_zpow, Rat.cast_ofNat] at h3
  · have a1 : (x : ℝ) - l < n * 2 ^ (Int.log 2 l + 1 - p) := by
      have h3 := (Rat.cast_lt (K := ℝ)).mpr h1
      rwa [Rat.cast_mul, Rat.cast_natCast, Rat.cast_zpow, Rat.cast_ofNat, Rat.cast_sub] at h3
    have a2 : (h : ℝ) - x < n * 2 ^ (Int.log 2 l + 1 - p) := by
      have h3 := (Rat.cast_lt (K := ℝ)).mpr h2
      rwa [Rat.cast_mul, Rat.cast_natCast, Rat.cast_zpow, Rat.cast_ofNat, Rat.cast_sub] at h3
    rw [abs_lt]
    exact ⟨by linarith [hv.hi], by linarith [hv.lo]⟩

/-! ## Rows of tables -/

theorem nearest_row {v : ℝ} {l h q : ℚ} {n : String} {fs : List (ℕ × ℕ)} (hv : In v l h)
    (hd : ∀ f ∈ fs, 1 ≤ f.2 ∧ rnd f.2 l = stored f.1 f.2 q ∧ rnd f.2 h = stored f.1 f.2 q) :
    (n, q).1 = (n, v).1 ∧ ∀ f ∈ fs, Nearest f.2 (n, v).2 (stored f.1 f.2 (n, q).2) :=
  ⟨rfl, fun f hf => hv.nearest f.2 (hd f hf).1 (hd f hf).2.1 (hd f hf).2.2⟩

theorem exponential_row {v : ℝ} {l h q : ℚ} {n : String} {fs : List (ℕ × ℕ)} (hv : In v l h)
    (hd : 0 < l ∧ (∀ f ∈ fs, 1 ≤ f.2 ∧ (f.2 ≤ 24 → rnd f.2 l = stored f.1 f.2 q ∧ rnd f.2 h = stored f.1 f.2 q)) ∧
      ∀ f ∈ fs, f.2 = 53 → rnd f.2 (stored f.1 f.2 q) = stored f.1 f.2 q ∧
        stored f.1 f.2 q - l < (2 : ℕ) * 2 ^ (Int.log 2 l + 1 - f.2) ∧ h - stored f.1 f.2 q < (2 : ℕ) * 2 ^ (Int.log 2 l + 1 - f.2)) :
    (n, q).1 = (n, v).1 ∧ (∀ f ∈ fs, f.2 ≤ 24 → Nearest f.2 (n, v).2 (stored f.1 f.2 (n, q).2)) ∧
      (∀ f ∈ fs, f.2 = 53 → Close f.2 2 (n, v).2 (stored f.1 f.2 (n, q).2)) := by
  obtain ⟨h0, h1, h2⟩ := hd
  refine ⟨rfl, fun f hf h => hv.nearest f.2 (h1 f hf).1 ((h1 f hf).2 h).1 ((h1 f hf).2 h).2, fun f hf h => ?_⟩
  obtain ⟨a, b, c⟩ := h2 f hf h
  exact hv.close f.2 2 (h1 f hf).1 a h0 b c

theorem wrong_row {v : ℝ} {l h q : ℚ} {n : String} (hv : In v l h)
    (hd : 0 < (stored 64 64 q - rnd 64 l) * (stored 64 64 q + rnd 64 l - 2 * l) ∧
      0 < (stored 64 64 q - rnd 64 l) * (stored 64 64 q + rnd 64 l - 2 * h)) :
    (n, q).1 = (n, v).1 ∧ ¬ Nearest 64 (n, v).2 (stored 64 64 (n, q).2) :=
  ⟨rfl, hv.not_nearest 64 (rnd_isFloat 64 (by norm_num) l) hd.1 hd.2⟩

theorem quad_row {v : ℝ} {l h q : ℚ} {n : String} (hv : In v l h) (hd : rnd 113 l = rnd 113 q ∧ rnd 113 h = rnd 113 q) :
    (n, q).1 = (n, v).1 ∧ Nearest 113 (n, v).2 (rnd 113 (n, q).2) :=
  ⟨rfl, hv.nearest 113 (by norm_num) hd.1 hd.2⟩

theorem quad_close_row {v : ℝ} {l h q : ℚ} {n : String} (hv : In v l h)
    (hd : 0 < l ∧ rnd 113 (rnd 113 q) = rnd 113 q ∧ rnd 113 q - l < (1 : ℕ) * 2 ^ (Int.log 2 l + 1 - (113 : ℕ)) ∧
      h - rnd 113 q < (1 : ℕ) * 2 ^ (Int.log 2 l + 1 - (113 : ℕ))) :
    (n, q).1 = (n, v).1 ∧ Close 113 1 (n, v).2 (rnd 113 (n, q).2) :=
  ⟨rfl, hv.close 113 1 (by norm_num) hd.2.1 hd.1 hd.2.2.1 hd.2.2.2⟩

theorem quad_wrong_row {v : ℝ} {l h q : ℚ} {n : String} (hv : In v l h)
    (hd : 0 < (rnd 113 q - rnd 113 l) * (rnd 113 q + rnd 113 l - 2 * l) ∧
      0 < (rnd 113 q - rnd 113 l) * (rnd 113 q + rnd 113 l - 2 * h)) :
    (n, q).1 = (n, v).1 ∧ ¬ Nearest 113 (n, v).2 (rnd 113 (n, q).2) :=
  ⟨rfl, hv.not_nearest 113 (rnd_isFloat 113 (by norm_num) l) hd.1 hd.2⟩

theorem half_row {v : ℝ} {l h : ℚ} {b : ℕ} {n : String} (hv : In v l h) (x : ℚ) (hx : Spec.Ieee.interchange 5 10 b = .finite x)
    (hd : 0 < l ∧ rnd 11 x = x ∧ x - l < (1 : ℕ) * 2 ^ (Int.log 2 l + 1 - (11 : ℕ)) ∧ h - x < (1 : ℕ) * 2 ^ (Int.log 2 l + 1 - (11 : ℕ))) :
    (n, b).1 = (n, v).1 ∧ ∃ x, Spec.Ieee.interchange 5 10 (n, b).2 = .finite x ∧ Close 11 1 (n, v).2 x :=
  ⟨rfl, x, hx, hv.close 11 1 (by norm_num) hd.2.1 hd.1 hd.2.2.1 hd.2.2.2⟩

/-! ## The numbers themselves -/

/-- Euler's series for the arc tangent, for rational numbers. -/
def series (x : ℚ) : ℕ → ℚ × ℚ
  | 0 => (x / (1 + x ^ 2), 0)
  | n + 1 =>
    let s := series x n
    (s.1 * (2 * (n + 1 : ℕ) / (2 * (n + 1 : ℕ) + 1) * (x ^ 2 / (1 + x ^ 2))), s.2 + s.1)

theorem series_eq (x : ℚ) (n : ℕ) : ((series x n).1 : ℝ) = ConstMath.coeff n * (x : ℝ) ^ (2 * n + 1) / (1 + (x : ℝ) ^ 2) ^ (n + 1) ∧
    ((series x n).2 : ℝ) = ConstMath.eulerSum x n := by
  induction n with
  | zero => simp [series, ConstMath.coeff, ConstMath.eulerSum]
  | succ n ih =>
    obtain ⟨i1, i2⟩ := ih
    have h : (0 : ℝ) < 1 + (x : ℝ) ^ 2 := by positivity
    constructor
    · rw [series]
      simp only [Rat.cast_mul, i1, ConstMath.coeff]
      push_cast
      rw [pow_succ _ (n + 1), show 2 * (n + 1) + 1 = (2 * n + 1) + 2 by ring, pow_add (x : ℝ) (2 * n + 1) 2]
      field_simp
    · rw [series]
      simp only [Rat.cast_add, i1, i2]
      rw [ConstMath.eulerSum, ConstMath.eulerSum, Finset.sum_range_succ]

theorem arctan_in (x : ℚ) (hx : 0 ≤ x) (n : ℕ) :
    In (arctan x) ((series x (n + 1)).2 - x * ((2 * n + 2) * (x ^ 2 / (1 + x ^ 2)) ^ (n + 1)))
      ((series x (n + 1)).2 + x * ((2 * n + 2) * (x ^ 2 / (1 + x ^ 2)) ^ (n + 1))) := by
  have h := ConstMath.eulerSum_near x (by exact_mod_cast hx) n
  rw [← (series_eq x (n + 1)).2, abs_le] at h
  constructor
  · push_cast; linarith [h.2]
  · push_cast; linarith [h.1]

theorem pi_in : In π (3141592653589793238462643383279502884197169399 / 10 ^ 45) (3141592653589793238462643383279502884197169400 / 10 ^ 45) := by
  have h := Real.four_mul_arctan_inv_5_sub_arctan_inv_239
  have a := arctan_in (1 / 5) (by norm_num) 33
  have b := arctan_in (1 / 239) (by norm_num) 10
  have e1 : (5 : ℝ)⁻¹ = ((1 / 5 : ℚ) : ℝ) := by norm_num
  have e2 : (239 : ℝ)⁻¹ = ((1 / 239 : ℚ) : ℝ) := by norm_num
  rw [e1, e2] at h
  have hl : (3141592653589793238462643383279502884197169399 / 10 ^ 45 : ℚ) ≤
      4 * (4 * ((series (1 / 5) (33 + 1)).2 - 1 / 5 * ((2 * (33 : ℕ) + 2) * ((1 / 5) ^ 2 / (1 + (1 / 5) ^ 2)) ^ (33 + 1))) -
      ((series (1 / 239) (10 + 1)).2 + 1 / 239 * ((2 * (10 : ℕ) + 2) * ((1 / 239) ^ 2 / (1 + (1 / 239) ^ 2)) ^ (10 + 1)))) := by
    decide +kernel
  have hh : 4 * (4 * ((series (1 / 5) (33 + 1)).2 + 1 / 5 * ((2 * (33 : ℕ) + 2) * ((1 / 5) ^ 2 / (1 + (1 / 5) ^ 2)) ^ (33 + 1))) -
      ((series (1 / 239) (10 + 1)).2 - 1 / 239 * ((2 * (10 : ℕ) + 2) * ((1 / 239) ^ 2 / (1 + (1 / 239) ^ 2)) ^ (10 + 1)))) ≤
      (3141592653589793238462643383279502884197169400 / 10 ^ 45 : ℚ) := by
    decide +kernel
  have hl' := (Rat.cast_le (K := ℝ)).mpr hl
  have hh' := (Rat.cast_le (K := ℝ)).mpr hh
  rw [Rat.cast_mul, Rat.cast_sub, Rat.cast_mul] at hl' hh'
  have c4 : ((4 : ℚ) : ℝ) = 4 := by norm_num
  rw [c4] at hl' hh'
  constructor
  · linarith [a.lo, b.hi]
  · linarith [a.hi, b.lo]

theorem exp_in : In euler (363916618873 / 133877442384 - 1 / 10 ^ 20) (363916618873 / 133877442384 + 1 / 10 ^ 20) := by
  have h := Real.exp_one_near_20
  rw [abs_le] at h
  constructor
  · rw [euler]; push_cast; linarith [h.1]
  · rw [euler]; push_cast; linarith [h.2]

theorem phi_in : In golden ((1 + 2236067977499789696409173668731276235440618359 / 10 ^ 45) / 2)
    ((1 + 2236067977499789696409173668731276235440618360 / 10 ^ 45) / 2) := by
  have h := In.sqrt (.nat 5) (2236067977499789696409173668731276235440618359 / 10 ^ 45)
    (2236067977499789696409173668731276235440618360 / 10 ^ 45)
  have h1 := h.lo
  have h2 := h.hi
  constructor
  · rw [golden]; push_cast at h1 ⊢; linarith
  · rw [golden]; push_cast at h2 ⊢; linarith

end Verif.Proofs.Constants
