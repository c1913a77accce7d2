import Verif.Model.HalfArith
import Verif.Proofs.Float
import Mathlib.Tactic

/-!
# Lemmas about rounding twice
-/

namespace Verif.Proofs.HalfArith

open Verif.Spec.Float Verif.Spec.SmallFloat Verif.Proofs.Float Verif.Model.HalfArith

theorem roundEven_unique {y : ℚ} {n : ℤ} (h : |y - n| < 1 / 2) : roundEven y = n := by
  have h1 := roundEven_near y
  rw [abs_lt] at h
  rw [abs_le] at h1
  have a : (roundEven y : ℚ) < n + 1 := by linarith
  have b : (n : ℚ) < roundEven y + 1 := by linarith
  have a' : roundEven y < n + 1 := by exact_mod_cast a
  have b' : n < roundEven y + 1 := by exact_mod_cast b
  omega

theorem roundEven_neg (y : ℚ) : roundEven (-y) = -roundEven y := by
  have h := rnd_neg
  unfold roundEven
  simp only
  by_cases hi : (⌊y⌋ : ℚ) = y
  · have e : ⌊-y⌋ = -⌊y⌋ := by nth_rw 1 [← hi]; rw [← Int.cast_neg, Int.floor_intCast]
    rw [e]
    push_cast
    rw [hi]
    simp
  · have e : ⌊-y⌋ = -⌊y⌋ - 1 := by
      rw [Int.floor_eq_iff]
      have h1 := Int.floor_le y
      have h2 := Int.lt_floor_add_one y
      have h3 : (⌊y⌋ : ℚ) < y := lt_of_le_of_ne h1 hi
      push_cast
      constructor <;> linarith
    rw [e]
    push_cast
    generalize (⌊y⌋ : ℤ) = f
    have h1 : -y - (-(f : ℚ) - 1) = 1 - (y - f) := by ring
    rw [h1]
    generalize y - (f : ℚ) = d
    rcases lt_trichotomy d (1 / 2) with hd | hd | hd
    · rw [if_neg (by linarith), if_pos (by linarith), if_pos hd]; ring
    · rw [if_neg (by linarith), if_neg (by linarith)]
      rw [if_neg (by linarith : ¬ d < 1 / 2), if_neg (by linarith : ¬ 1 / 2 < d)]
      split_ifs <;> omega
    · rw [if_pos (by linarith), if_neg (by linarith), if_pos hd]; ring

theorem round_neg (p : ℕ) (emin : ℤ) (z : ℚ) : rounded p emin (-z) = -rounded p emin z := by
  unfold rounded
  rw [abs_neg, rnd_neg, neg_div, roundEven_neg]
  push_cast
  split_ifs <;> ring

/-- The exponent of the last place of a number after rounding. -/
def place (p : ℕ) (emin : ℤ) (z : ℚ) : ℤ := max (Int.log 2 |z|) emin - p + 1

theorem two_zpow_pos (k : ℤ) : (0 : ℚ) < 2 ^ k := by positivity

theorem lt_place (p : ℕ) (emin : ℤ) (z : ℚ) (hz : z ≠ 0) : |z| < 2 ^ (place p emin z + p) := by
  refine (log_bounds hz).2.trans_le (zpow_le_zpow_right₀ (by norm_num) ?_)
  unfold place
  have := le_max_left (Int.log 2 |z|) emin
  omega

/-- Rounding again is rounding to the places of the first number. -/
theorem round_again (p q : ℕ) (hp : 1 ≤ p) (hq : 1 ≤ q) (emin : ℤ) (z : ℚ) (hz : 0 < z) (w : ℚ) (hw : w = z ∨ w = rnd q z) :
    rounded p emin w = roundEven (w / 2 ^ place p emin z) * 2 ^ place p emin z := by
  have habs : |z| = z := abs_of_pos hz
  have fix (k : ℤ) : rnd q (2 ^ k) = 2 ^ k := by
    have := rnd_exact q hq 1 k (by rw [abs_one]; exact one_le_pow₀ (by norm_num))
    simpa using this
  have up (k : ℤ) (h : z ≤ 2 ^ k) : w ≤ 2 ^ k := by
    rcases hw with rfl | rfl
    · exact h
    · rw [← fix k]; exact rnd_mono q hq h
  have low (k : ℤ) (h : 2 ^ k ≤ z) : 2 ^ k ≤ w := by
    rcases hw with rfl | rfl
    · exact h
    · rw [← fix k]; exact rnd_mono q hq h
  have w0 : 0 ≤ w := by
    rcases hw with rfl | rfl
    · exact hz.le
    · exact rnd_nonneg q hz.le
  -- a power of two
  have exact (k : ℤ) (h : k = place p emin z + p - 1 ∨ k = place p emin z + p) :
      rnd p (2 ^ k) = roundEven ((2 : ℚ) ^ k / 2 ^ place p emin z) * 2 ^ place p emin z := by
    have f : rnd p (2 ^ k) = 2 ^ k := by
      have := rnd_exact p hp 1 k (by rw [abs_one]; exact one_le_pow₀ (by norm_num))
      simpa using this
    obtain ⟨d, hd⟩ : ∃ d : ℕ, k = place p emin z + d := by
      rcases h with h | h
      · exact ⟨p - 1, by omega⟩
      · exact ⟨p, by omega⟩
    have e : (2 : ℚ) ^ k / 2 ^ place p emin z = ((2 ^ d : ℤ) : ℚ) := by
      rw [hd, zpow_add₀ (by norm_num), mul_div_cancel_left₀ _ (two_zpow_pos _).ne']
      push_cast
      rw [zpow_natCast]
    rw [f, e, roundEven_int, ← e, div_mul_cancel₀ _ (two_zpow_pos _).ne']
  have lb := log_bounds hz.ne'
  rw [habs] at lb
  rcases lt_or_ge z (2 ^ emin) with h | h
  · have hl : Int.log 2 |z| < emin := by
      rw [habs]
      by_contra hc
      push Not at hc
      have := zpow_le_zpow_right₀ (a := (2 : ℚ)) (by norm_num) hc
      linarith [lb.1]
    have hpl : place p emin z = emin - p + 1 := by rw [place, max_eq_right hl.le]
    rcases lt_or_eq_of_le (up emin h.le) with h2 | h2
    · rw [rounded, if_pos (by rwa [abs_of_nonneg w0]), hpl]
    · rw [rounded, if_neg (by rw [h2, abs_of_pos (two_zpow_pos _)]; exact lt_irrefl _), h2]
      exact exact emin (Or.inl (by rw [hpl]; ring))
  · have hl : emin ≤ Int.log 2 |z| := by
      rw [habs]
      by_contra hc
      push Not at hc
      have := zpow_le_zpow_right₀ (a := (2 : ℚ)) (by norm_num) (show Int.log 2 z + 1 ≤ emin by omega)
      linarith [lb.2]
    have hpl : place p emin z = Int.log 2 z - p + 1 := by rw [place, max_eq_left hl, habs]
    rw [rounded, if_neg (by rw [abs_of_nonneg w0, not_lt]; exact low emin h)]
    rcases lt_or_eq_of_le (up _ lb.2.le) with h2 | h2
    · rw [rnd_eval p w (Int.log 2 z) (low _ lb.1) h2, hpl]
    · rw [h2]
      exact exact _ (Or.inr (by rw [hpl]; ring))

/-- Rounding first to more bits does not matter, unless that gives the midpoint of two neighbours. -/
theorem round_twice (p q : ℕ) (hp : 1 ≤ p) (hq : p + 2 ≤ q) (emin : ℤ) (z : ℚ) (hz : 0 < z)
    (hm : ∀ n : ℤ, rnd q z = (2 * n + 1 : ℤ) * 2 ^ (place p emin z - 1) → rnd q z = z) :
    rounded p emin (rnd q z) = rounded p emin z := by
  rw [round_again p q hp (by omega) emin z hz _ (Or.inr rfl), round_again p q hp (by omega) emin z hz _ (Or.inl rfl)]
  by_cases he : rnd q z = z
  · rw [he]
  congr 2
  symm
  set u : ℚ := 2 ^ place p emin z with hu
  have u0 : 0 < u := two_zpow_pos _
  set n := roundEven (rnd q z / u) with hn
  have hr0 : 0 ≤ rnd q z := rnd_nonneg q hz.le
  have hn0 : 0 ≤ n := le_roundEven (by push_cast; positivity)
  have hz1 := lt_place p emin z hz.ne'
  rw [abs_of_pos hz] at hz1
  have hn1 : n ≤ 2 ^ p := by
    apply roundEven_le
    rw [div_le_iff₀ u0]
    have f : rnd q (2 ^ (place p emin z + p)) = 2 ^ (place p emin z + p) := by
      have := rnd_exact q (by omega) 1 (place p emin z + p) (by rw [abs_one]; exact one_le_pow₀ (by norm_num))
      simpa using this
    have := rnd_mono q (by omega) hz1.le
    rw [f, zpow_add₀ (by norm_num), zpow_natCast] at this
    push_cast
    linarith
  have half : (2 : ℚ) ^ (place p emin z - 1) = u / 2 := by
    rw [hu, zpow_sub_one₀ (by norm_num)]; ring
  rw [half] at hm
  have hnear := roundEven_near (rnd q z / u)
  rw [← hn] at hnear
  have hpow : (2 : ℤ) ^ p * 4 ≤ 2 ^ q := by
    calc (2 : ℤ) ^ p * 4 = 2 ^ (p + 2) := by rw [pow_add]; norm_num
      _ ≤ 2 ^ q := pow_le_pow_right₀ (by norm_num) hq
  have hpp : (1 : ℤ) ≤ 2 ^ p := one_le_pow₀ (by norm_num)
  -- midpoints are not moved
  have fix (m : ℤ) (h : |2 * m + 1| ≤ 2 ^ q) : rnd q ((2 * m + 1 : ℤ) * (u / 2)) = (2 * m + 1 : ℤ) * (u / 2) := by
    rw [← half]
    exact rnd_exact q (by omega) _ _ h
  apply roundEven_unique
  rw [abs_lt]
  constructor
  · by_contra hc
    push Not at hc
    have h1 : z ≤ (2 * (n - 1) + 1 : ℤ) * (u / 2) := by
      have h2 : z / u ≤ n - 1 / 2 := by linarith
      rw [div_le_iff₀ u0] at h2
      push_cast
      linarith
    have h2 := rnd_mono q (by omega) h1
    rw [fix (n - 1) (by rw [abs_le]; constructor <;> omega)] at h2
    have h3 : (n : ℚ) - 1 / 2 ≤ rnd q z / u := by
      rw [abs_le] at hnear; linarith
    rw [le_div_iff₀ u0] at h3
    push_cast at h2
    exact he (hm (n - 1) (by push_cast; linarith))
  · by_contra hc
    push Not at hc
    have h1 : (2 * n + 1 : ℤ) * (u / 2) ≤ z := by
      have h2 : (n : ℚ) + 1 / 2 ≤ z / u := by linarith
      rw [le_div_iff₀ u0] at h2
      push_cast
      linarith
    have h2 := rnd_mono q (by omega) h1
    rw [fix n (by rw [abs_le]; constructor <;> omega)] at h2
    have h3 : rnd q z / u ≤ (n : ℚ) + 1 / 2 := by
      rw [abs_le] at hnear; linarith
    rw [div_le_iff₀ u0] at h3
    push_cast at h2
    exact he (hm n (by push_cast; linarith))

theorem int_mul_ge (m k : ℤ) (h : m ≠ 0) : (2 : ℚ) ^ k ≤ |(m : ℚ) * 2 ^ k| := by
  rw [abs_mul, abs_of_pos (two_zpow_pos k)]
  have : (1 : ℚ) ≤ |(m : ℚ)| := by
    rw [← Int.cast_abs]
    exact_mod_cast Int.one_le_abs h
  nlinarith [two_zpow_pos k]

theorem zpow_split (k t : ℤ) (h : t ≤ k) : ∃ d : ℕ, (2 : ℚ) ^ k = (2 ^ d : ℤ) * 2 ^ t ∧ k = t + d := by
  refine ⟨(k - t).toNat, ?_, by omega⟩
  push_cast
  rw [← zpow_natCast, ← zpow_add₀ (by norm_num)]
  congr 1
  omega

/-- The sum of two numbers with 11 bits. -/
theorem sum_case (A B i j : ℤ) (hij : i ≤ j) (hA : |A| < 2 ^ 11) (hB : |B| < 2 ^ 11) (hi : -24 ≤ i) (z : ℚ)
    (hz : z = A * 2 ^ i + B * 2 ^ j) (z0 : 0 < z) (n : ℤ) (hm : rnd 24 z = (2 * n + 1 : ℤ) * 2 ^ (place 11 (-14) z - 1)) :
    rnd 24 z = z := by
  obtain ⟨d, hd, hjd⟩ := zpow_split j i hij
  have hzi : z = (A + B * 2 ^ d : ℤ) * 2 ^ i := by rw [hz, hd]; push_cast; ring
  set K := place 11 (-14) z with hK
  have hlt := lt_place 11 (-14) z z0.ne'
  rw [abs_of_pos z0, ← hK] at hlt
  -- few bits are exact
  by_cases hsmall : |A + B * 2 ^ d| ≤ 2 ^ 24
  · rw [hzi]
    exact rnd_exact 24 (by norm_num) _ _ hsmall
  exfalso
  push Not at hsmall
  have hbig : (2 : ℚ) ^ (24 + i) < z := by
    rw [← abs_of_pos z0, hzi, abs_mul, abs_of_pos (two_zpow_pos i), zpow_add₀ (by norm_num)]
    apply mul_lt_mul_of_pos_right _ (two_zpow_pos i)
    rw [← Int.cast_abs]
    exact_mod_cast hsmall
  have lb := log_bounds z0.ne'
  rw [abs_of_pos z0] at lb
  have hlog : 24 + i ≤ Int.log 2 z := by
    by_contra hc
    push Not at hc
    have := zpow_le_zpow_right₀ (a := (2 : ℚ)) (by norm_num) (show Int.log 2 z + 1 ≤ 24 + i by omega)
    linarith [lb.2]
  have hKl : i + 14 ≤ K := by
    rw [hK, place, abs_of_pos z0]
    have := le_max_left (Int.log 2 z) (-14)
    push_cast
    omega
  have pK : (0 : ℚ) < 2 ^ (K - 4) := two_zpow_pos _
  have e1 : (2 : ℚ) ^ (K - 1) = 8 * 2 ^ (K - 4) := by
    rw [show K - 1 = 3 + (K - 4) by ring, zpow_add₀ (by norm_num)]; norm_num
  have e2 : (2 : ℚ) ^ (K - 3) = 2 * 2 ^ (K - 4) := by
    rw [show K - 3 = 1 + (K - 4) by ring, zpow_add₀ (by norm_num)]; norm_num
  have e3 : (2 : ℚ) ^ (K + (11 : ℕ)) = 2 ^ 15 * 2 ^ (K - 4) := by
    rw [show K + (11 : ℕ) = 15 + (K - 4) by push_cast; ring, zpow_add₀ (by norm_num)]; norm_num
  have e4 : (2 : ℚ) ^ (K + 10) = 2 ^ 14 * 2 ^ (K - 4) := by
    rw [show K + 10 = 14 + (K - 4) by ring, zpow_add₀ (by norm_num)]; norm_num
  -- the small summand
  have ha : |(A : ℚ) * 2 ^ i| ≤ 2 * 2 ^ (K - 4) := by
    rw [abs_mul, abs_of_pos (two_zpow_pos i), ← e2]
    have h1 : |(A : ℚ)| ≤ 2 ^ 11 := by rw [← Int.cast_abs]; exact_mod_cast hA.le
    calc |(A : ℚ)| * 2 ^ i ≤ 2 ^ 11 * 2 ^ i := mul_le_mul_of_nonneg_right h1 (two_zpow_pos i).le
      _ = 2 ^ (11 + i) := by rw [zpow_add₀ (by norm_num)]; norm_num
      _ ≤ 2 ^ (K - 3) := zpow_le_zpow_right₀ (by norm_num) (by omega)
  have herr := rnd_err 24 z
  rw [abs_of_pos z0] at herr
  have hb : 8 * (2 : ℚ) ^ (K - 4) ≤ |(B : ℚ) * 2 ^ j - rnd 24 z| := by
    rw [hm, ← e1]
    by_cases hj : K ≤ j
    · obtain ⟨c, hc, hjc⟩ := zpow_split j (K - 1) (by omega)
      obtain ⟨c', rfl⟩ : ∃ c', c = c' + 1 := ⟨c - 1, by omega⟩
      have : (B : ℚ) * 2 ^ j - (2 * n + 1 : ℤ) * 2 ^ (K - 1) = (B * 2 ^ (c' + 1) - (2 * n + 1) : ℤ) * 2 ^ (K - 1) := by
        rw [hc]; push_cast; ring
      rw [this]
      apply int_mul_ge
      rw [pow_succ]
      intro h
      have : 2 * (B * 2 ^ c' - n) = 1 := by linarith
      omega
    · -- then `B * 2 ^ j` is below the binade of `z`
      push Not at hj
      have h1 : (B : ℚ) * 2 ^ j ≤ 2 ^ (K + 10) := by
        have h2 : (B : ℚ) ≤ 2 ^ 11 := by exact_mod_cast (le_abs_self B).trans hB.le
        calc (B : ℚ) * 2 ^ j ≤ 2 ^ 11 * 2 ^ j := mul_le_mul_of_nonneg_right h2 (two_zpow_pos j).le
          _ = 2 ^ (11 + j) := by rw [zpow_add₀ (by norm_num)]; norm_num
          _ ≤ 2 ^ (K + 10) := zpow_le_zpow_right₀ (by norm_num) (by omega)
      have hKe : K + 10 = Int.log 2 z := by
        have hmax : -14 ≤ Int.log 2 z := by omega
        rw [hK, place, abs_of_pos z0, max_eq_left hmax]
        push_cast
        ring
      have h3 : (2 : ℚ) ^ (K + 10) ≤ rnd 24 z := by
        have f : rnd 24 ((2 : ℚ) ^ (K + 10)) = 2 ^ (K + 10) := by
          have := rnd_exact 24 (by norm_num) 1 (K + 10) (by norm_num)
          simpa using this
        rw [← f]
        exact rnd_mono 24 (by norm_num) (by rw [hKe]; exact lb.1)
      have h4 : (2 : ℚ) ^ (K + 10) + 2 ^ (K - 1) ≤ rnd 24 z := by
        have e5 : (2 : ℚ) ^ (K + 10) = ((2 ^ 11 : ℤ) : ℚ) * 2 ^ (K - 1) := by
          rw [show K + 10 = 11 + (K - 1) by ring, zpow_add₀ (by norm_num)]; norm_num
        rw [hm, e5] at h3 ⊢
        have h5 : ((2 ^ 11 : ℤ) : ℚ) ≤ (2 * n + 1 : ℤ) := le_of_mul_le_mul_right h3 (two_zpow_pos _)
        have h6 : (2 : ℤ) ^ 11 ≤ 2 * n + 1 := by exact_mod_cast h5
        have h7 : (2 : ℤ) ^ 11 + 1 ≤ 2 * n + 1 := by omega
        have h8 : ((2 ^ 11 + 1 : ℤ) : ℚ) ≤ (2 * n + 1 : ℤ) := by exact_mod_cast h7
        calc ((2 ^ 11 : ℤ) : ℚ) * 2 ^ (K - 1) + 2 ^ (K - 1) = ((2 ^ 11 + 1 : ℤ) : ℚ) * 2 ^ (K - 1) := by push_cast; ring
          _ ≤ _ := mul_le_mul_of_nonneg_right h8 (two_zpow_pos _).le
      rw [← hm, abs_sub_comm]
      refine le_trans ?_ (le_abs_self _)
      linarith
  have hd2 : |(B : ℚ) * 2 ^ j - rnd 24 z| ≤ |rnd 24 z - z| + |(A : ℚ) * 2 ^ i| := by
    have : (B : ℚ) * 2 ^ j - rnd 24 z = -(rnd 24 z - z) - A * 2 ^ i := by rw [hz]; ring
    rw [this]
    refine (abs_sub _ _).trans ?_
    rw [abs_neg]
  rw [e3] at hlt
  have : |rnd 24 z - z| ≤ 2 ^ (K - 4) := by nlinarith
  linarith

/-- The quotient of two numbers with 11 bits. -/
theorem quotient_case (A B d : ℤ) (hA : |A| < 2 ^ 11) (hB : |B| < 2 ^ 11) (hB0 : B ≠ 0) (z : ℚ)
    (hz : z = A / B * 2 ^ d) (z0 : 0 < z) (n : ℤ) (hm : rnd 24 z = (2 * n + 1 : ℤ) * 2 ^ (place 11 (-14) z - 1)) :
    rnd 24 z = z := by
  set t := place 11 (-14) z - 1 with ht
  have hlt := lt_place 11 (-14) z z0.ne'
  rw [abs_of_pos z0, show place 11 (-14) z + (11 : ℕ) = 12 + t by rw [ht]; push_cast; ring, zpow_add₀ (by norm_num)] at hlt
  have herr := rnd_err 24 z
  rw [abs_of_pos z0] at herr
  by_contra hne
  have hBq : (B : ℚ) ≠ 0 := by exact_mod_cast hB0
  have hBabs : 0 < |(B : ℚ)| := abs_pos.mpr hBq
  have hB' : |(B : ℚ)| ≤ 2 ^ 11 := by rw [← Int.cast_abs]; exact_mod_cast hB.le
  have hA' : |(A : ℚ)| ≤ 2 ^ 11 := by rw [← Int.cast_abs]; exact_mod_cast hA.le
  have hdiff : |rnd 24 z - z| * |(B : ℚ)| = |(B : ℚ) * ((2 * n + 1 : ℤ) * 2 ^ t) - A * 2 ^ d| := by
    rw [← abs_mul, hm, hz]
    congr 1
    field_simp
  have hne' : (B : ℚ) * ((2 * n + 1 : ℤ) * 2 ^ t) - A * 2 ^ d ≠ 0 := by
    intro h
    rw [h, abs_zero, mul_eq_zero] at hdiff
    rcases hdiff with h1 | h1
    · exact hne (sub_eq_zero.mp (abs_eq_zero.mp h1))
    · exact hBabs.ne' h1
  rcases le_total t d with h | h
  · obtain ⟨c, hc, -⟩ := zpow_split d t h
    have e : (B : ℚ) * ((2 * n + 1 : ℤ) * 2 ^ t) - A * 2 ^ d = (B * (2 * n + 1) - A * 2 ^ c : ℤ) * 2 ^ t := by
      rw [hc]; push_cast; ring
    rw [e] at hdiff hne'
    have hge := int_mul_ge (B * (2 * n + 1) - A * 2 ^ c) t (by
      intro h0
      rw [h0] at hne'
      simp at hne')
    rw [← hdiff] at hge
    have ht0 := two_zpow_pos t
    have h1 : |rnd 24 z - z| * |(B : ℚ)| ≤ |rnd 24 z - z| * 2 ^ 11 := mul_le_mul_of_nonneg_left hB' (abs_nonneg _)
    norm_num at hlt
    nlinarith
  · obtain ⟨c, hc, -⟩ := zpow_split t d h
    have e : (B : ℚ) * ((2 * n + 1 : ℤ) * 2 ^ t) - A * 2 ^ d = (B * (2 * n + 1) * 2 ^ c - A : ℤ) * 2 ^ d := by
      rw [hc]; push_cast; ring
    rw [e] at hdiff hne'
    have hge := int_mul_ge (B * (2 * n + 1) * 2 ^ c - A) d (by
      intro h0
      rw [h0] at hne'
      simp at hne')
    rw [← hdiff] at hge
    have hzB : z * |(B : ℚ)| = |(A : ℚ)| * 2 ^ d := by
      rw [← abs_of_pos z0, ← abs_mul, hz]
      rw [← abs_of_pos (two_zpow_pos d), ← abs_mul, abs_of_pos (two_zpow_pos d)]
      congr 1
      field_simp
    have hd0 := two_zpow_pos d
    have h1 : z * |(B : ℚ)| ≤ 2 ^ 11 * 2 ^ d := by
      rw [hzB]; exact mul_le_mul_of_nonneg_right hA' hd0.le
    have h2 : |rnd 24 z - z| * 2 ^ 24 * |(B : ℚ)| ≤ z * |(B : ℚ)| := mul_le_mul_of_nonneg_right herr hBabs.le
    nlinarith

/-- Rounding twice for numbers of either sign. -/
theorem round_twice_sign (z : ℚ) (h : ∀ y : ℚ, (y = z ∨ y = -z) → 0 < y → ∀ n : ℤ,
      rnd 24 y = (2 * n + 1 : ℤ) * 2 ^ (place 11 (-14) y - 1) → rnd 24 y = y) :
    rounded 11 (-14) (rnd 24 z) = rounded 11 (-14) z := by
  rcases lt_trichotomy z 0 with h0 | h0 | h0
  · have := round_twice 11 24 (by norm_num) (by norm_num) (-14) (-z) (by linarith) (h (-z) (Or.inr rfl) (by linarith))
    rw [rnd_neg, round_neg, round_neg] at this
    exact neg_injective this
  · rw [h0, rnd_zero]
  · exact round_twice 11 24 (by norm_num) (by norm_num) (-14) z h0 (h z (Or.inl rfl) h0)

theorem rnd_le_pow (p : ℕ) (hp : 1 ≤ p) (z : ℚ) (k : ℤ) (h : |z| ≤ 2 ^ k) : |rnd p z| ≤ 2 ^ k := by
  have f : rnd p ((2 : ℚ) ^ k) = 2 ^ k := by
    have := rnd_exact p hp 1 k (by rw [abs_one]; exact one_le_pow₀ (by norm_num))
    simpa using this
  rw [abs_le] at h ⊢
  constructor
  · rw [← f, ← rnd_neg]
    exact rnd_mono p hp h.1
  · rw [← f]
    exact rnd_mono p hp h.2

/-- In the range of `float`, a `float` expression is rounded to 24 bits. -/
theorem single_eq (z : ℚ) (h1 : z = 0 ∨ 2 ^ (-126 : ℤ) ≤ |z|) (h2 : |z| ≤ 2 ^ (127 : ℤ)) : single z = .finite (rnd 24 z) := by
  have e : rounded 24 (-126) z = rnd 24 z := by
    rcases h1 with h1 | h1
    · have r0 : roundEven 0 = 0 := by have := roundEven_int 0; simpa using this
      rw [h1, rnd_zero, rounded, abs_zero, if_pos (two_zpow_pos _), zero_div, r0]; simp
    · rw [rounded, if_neg (not_lt.mpr h1)]
  have hr := rnd_le_pow 24 (by norm_num) z 127 h2
  rw [single, result]
  simp only [e]
  rw [if_neg]
  rw [not_lt]
  refine hr.trans ?_
  norm_num

/-- What has to be shown for an operation to round as if once. -/
theorem viaSingle_eq (z : ℚ) (h1 : z = 0 ∨ 2 ^ (-126 : ℤ) ≤ |z|) (h2 : |z| ≤ 2 ^ (127 : ℤ))
    (h3 : rounded 11 (-14) (rnd 24 z) = rounded 11 (-14) z) : viaSingle z = half z := by
  rw [viaSingle, single_eq z h1 h2]
  simp only [half, result, h3]

theorem half_bound {m k : ℤ} (hm : |m| < 2 ^ 11) (hk : k ≤ 5) : |(m : ℚ) * 2 ^ k| ≤ 2 ^ (16 : ℤ) := by
  rw [abs_mul, abs_of_pos (two_zpow_pos k)]
  have h1 : |(m : ℚ)| ≤ 2 ^ 11 := by rw [← Int.cast_abs]; exact_mod_cast hm.le
  calc |(m : ℚ)| * 2 ^ k ≤ 2 ^ 11 * 2 ^ k := mul_le_mul_of_nonneg_right h1 (two_zpow_pos k).le
    _ = 2 ^ (11 + k) := by rw [zpow_add₀ (by norm_num)]; norm_num
    _ ≤ 2 ^ (16 : ℤ) := zpow_le_zpow_right₀ (by norm_num) (by omega)

theorem half_small {m k : ℤ} (hk : -24 ≤ k) (h : (m : ℚ) * 2 ^ k ≠ 0) : (2 : ℚ) ^ (-24 : ℤ) ≤ |(m : ℚ) * 2 ^ k| :=
  (zpow_le_zpow_right₀ (by norm_num) hk).trans (int_mul_ge m k (by rintro rfl; simp at h))

theorem add_eq (a b : ℚ) (ha : IsHalf a) (hb : IsHalf b) : viaSingle (a + b) = half (a + b) := by
  obtain ⟨A, i, hA, hi, hi2, rfl⟩ := ha
  obtain ⟨B, j, hB, hj, hj2, rfl⟩ := hb
  -- in order of exponents
  have main (A B i j : ℤ) (hA : |A| < 2 ^ 11) (hB : |B| < 2 ^ 11) (hi : -24 ≤ i) (hij : i ≤ j) (hj2 : j ≤ 5) :
      viaSingle ((A : ℚ) * 2 ^ i + B * 2 ^ j) = half ((A : ℚ) * 2 ^ i + B * 2 ^ j) := by
    obtain ⟨d, hd, -⟩ := zpow_split j i hij
    apply viaSingle_eq
    · by_cases h0 : (A : ℚ) * 2 ^ i + B * 2 ^ j = 0
      · exact Or.inl h0
      · right
        have e : (A : ℚ) * 2 ^ i + B * 2 ^ j = (A + B * 2 ^ d : ℤ) * 2 ^ i := by rw [hd]; push_cast; ring
        rw [e] at h0 ⊢
        exact (zpow_le_zpow_right₀ (by norm_num) (by norm_num : (-126 : ℤ) ≤ -24)).trans (half_small hi h0)
    · refine (abs_add_le _ _).trans ((add_le_add (half_bound hA (by omega)) (half_bound hB hj2)).trans ?_)
      norm_num
    · apply round_twice_sign
      rintro y (rfl | rfl) hy n hn
      · exact sum_case A B i j hij hA hB hi _ rfl hy n hn
      · exact sum_case (-A) (-B) i j hij (by rwa [abs_neg]) (by rwa [abs_neg]) hi _ (by push_cast; ring) hy n hn
  rcases le_total i j with h | h
  · exact main A B i j hA hB hi h hj2
  · rw [add_comm]
    exact main B A j i hB hA hj h hi2

theorem isHalf_neg {b : ℚ} (hb : IsHalf b) : IsHalf (-b) := by
  obtain ⟨B, j, hB, hj, hj2, rfl⟩ := hb
  exact ⟨-B, j, by rwa [abs_neg], hj, hj2, by push_cast; ring⟩

theorem mul_eq (a b : ℚ) (ha : IsHalf a) (hb : IsHalf b) : viaSingle (a * b) = half (a * b) := by
  obtain ⟨A, i, hA, hi, hi2, rfl⟩ := ha
  obtain ⟨B, j, hB, hj, hj2, rfl⟩ := hb
  have e : (A : ℚ) * 2 ^ i * (B * 2 ^ j) = (A * B : ℤ) * 2 ^ (i + j) := by
    rw [zpow_add₀ (by norm_num)]; push_cast; ring
  have hx : rnd 24 ((A : ℚ) * 2 ^ i * (B * 2 ^ j)) = (A : ℚ) * 2 ^ i * (B * 2 ^ j) := by
    rw [e]
    apply rnd_exact 24 (by norm_num)
    rw [abs_mul]
    calc |A| * |B| ≤ 2 ^ 11 * 2 ^ 11 := mul_le_mul hA.le hB.le (abs_nonneg _) (by norm_num)
      _ ≤ 2 ^ 24 := by norm_num
  apply viaSingle_eq
  · by_cases h0 : (A : ℚ) * 2 ^ i * (B * 2 ^ j) = 0
    · exact Or.inl h0
    · right
      have h1 := half_small hi (left_ne_zero_of_mul h0)
      have h2 := half_small hj (right_ne_zero_of_mul h0)
      rw [abs_mul]
      refine le_trans ?_ (mul_le_mul h1 h2 (two_zpow_pos _).le (abs_nonneg _))
      norm_num
  · rw [abs_mul]
    refine (mul_le_mul (half_bound hA hi2) (half_bound hB hj2) (abs_nonneg _) (two_zpow_pos _).le).trans ?_
    norm_num
  · rw [hx]

theorem div_eq (a b : ℚ) (ha : IsHalf a) (hb : IsHalf b) (hb0 : b ≠ 0) : viaSingle (a / b) = half (a / b) := by
  obtain ⟨A, i, hA, hi, hi2, rfl⟩ := ha
  obtain ⟨B, j, hB, hj, hj2, rfl⟩ := hb
  have hB0 : B ≠ 0 := by rintro rfl; simp at hb0
  have e : (A : ℚ) * 2 ^ i / (B * 2 ^ j) = A / B * 2 ^ (i - j) := by
    rw [zpow_sub₀ (by norm_num)]
    have := two_zpow_pos j
    have hBq : (B : ℚ) ≠ 0 := by exact_mod_cast hB0
    field_simp
  have hbp : 0 < |(B : ℚ) * 2 ^ j| := abs_pos.mpr hb0
  apply viaSingle_eq
  · by_cases h0 : (A : ℚ) * 2 ^ i / (B * 2 ^ j) = 0
    · exact Or.inl h0
    · right
      have h1 := half_small hi (div_ne_zero_iff.mp h0).1
      have h2 := half_bound hB hj2
      rw [abs_div, le_div_iff₀ hbp]
      refine le_trans (mul_le_mul_of_nonneg_left h2 (two_zpow_pos _).le) (le_trans ?_ h1)
      norm_num
  · have h1 := half_bound hA hi2
    have h2 := half_small hj hb0
    rw [abs_div, div_le_iff₀ hbp]
    refine h1.trans (le_trans ?_ (mul_le_mul_of_nonneg_left h2 (two_zpow_pos _).le))
    norm_num
  · apply round_twice_sign
    rintro y (rfl | rfl) hy n hn
    · exact quotient_case A B (i - j) hA hB hB0 _ e hy n hn
    · exact quotient_case (-A) B (i - j) (by rwa [abs_neg]) hB hB0 _ (by rw [e]; push_cast; ring) hy n hn

/-- Numbers of the type are not changed. -/
theorem half_exact (a : ℚ) (ha : IsHalf a) : half a = .finite a := by
  obtain ⟨m, k, hm, hk, hk2, rfl⟩ := ha
  have e : rounded 11 (-14) ((m : ℚ) * 2 ^ k) = m * 2 ^ k := by
    rw [rounded]
    split_ifs
    · obtain ⟨d, hd, -⟩ := zpow_split k (-24) hk
      have e24 : (-14 : ℤ) - (11 : ℕ) + 1 = -24 := by norm_num
      have h1 : (m : ℚ) * 2 ^ k / 2 ^ (-24 : ℤ) = (m * 2 ^ d : ℤ) := by
        rw [hd, ← mul_assoc, mul_div_cancel_right₀ _ (two_zpow_pos _).ne']; push_cast; ring
      rw [e24, h1, roundEven_int, ← h1, div_mul_cancel₀ _ (two_zpow_pos _).ne']
    · exact rnd_exact 11 (by norm_num) m k hm.le
  rw [half, result]
  simp only [e]
  rw [if_neg]
  rw [not_lt, abs_mul, abs_of_pos (two_zpow_pos k)]
  have h1 : |(m : ℚ)| ≤ 2047 := by
    rw [← Int.cast_abs]
    have : |m| ≤ 2047 := by norm_num at hm; omega
    exact_mod_cast this
  have h2 : (2 : ℚ) ^ k ≤ 2 ^ (5 : ℤ) := zpow_le_zpow_right₀ (by norm_num) hk2
  calc |(m : ℚ)| * 2 ^ k ≤ 2047 * 2 ^ (5 : ℤ) := mul_le_mul h1 h2 (two_zpow_pos k).le (by norm_num)
    _ = 65504 := by norm_num

end Verif.Proofs.HalfArith
