import Verif.Spec.Float
/-! Properties of floating-point rounding. -/
namespace Verif.Proofs.Float
open Verif.Spec.Float

theorem roundEven_near (q : ℚ) : |(roundEven q : ℚ) - q| ≤ 1 / 2 := by
  unfold roundEven
  have h1 := Int.floor_le q
  have h2 := Int.lt_floor_add_one q
  simp only
  split
  · rw [abs_le]; constructor <;> linarith
  · split
    · push_cast; rw [abs_le]; constructor <;> linarith
    · split <;> push_cast <;> rw [abs_le] <;> constructor <;> linarith

theorem roundEven_int (n : ℤ) : roundEven n = n := by
  unfold roundEven
  simp

theorem roundEven_mono {a b : ℚ} (h : a ≤ b) : roundEven a ≤ roundEven b := by
  have ha := abs_le.1 (roundEven_near a)
  have hb := abs_le.1 (roundEven_near b)
  by_contra hlt
  push Not at hlt
  have h1 : (roundEven b : ℚ) + 1 ≤ roundEven a := by exact_mod_cast hlt
  -- then a = b, being midway
  have : a = b := by linarith [ha.1, ha.2, hb.1, hb.2]
  rw [this] at hlt
  exact lt_irrefl _ hlt

theorem roundEven_le {q : ℚ} {n : ℤ} (h : q ≤ n) : roundEven q ≤ n := by
  have := roundEven_mono h; rwa [roundEven_int] at this

theorem le_roundEven {q : ℚ} {n : ℤ} (h : (n : ℚ) ≤ q) : n ≤ roundEven q := by
  have := roundEven_mono h; rwa [roundEven_int] at this

theorem ulp_pos (p : ℕ) (q : ℚ) : 0 < ulp p q := by unfold ulp; positivity

theorem log_bounds {q : ℚ} (h : q ≠ 0) : (2 : ℚ) ^ (Int.log 2 |q|) ≤ |q| ∧ |q| < 2 ^ (Int.log 2 |q| + 1) := by
  have hp : 0 < |q| := abs_pos.2 h
  constructor
  · have := Int.zpow_log_le_self (b := 2) (by norm_num) hp; exact_mod_cast this
  · have := Int.lt_zpow_succ_log_self (b := 2) (by norm_num) |q|; exact_mod_cast this

theorem ulp_eq (p : ℕ) (q : ℚ) : ulp p q * 2 ^ p = 2 * 2 ^ (Int.log 2 |q|) := by
  unfold ulp
  rw [zpow_add_one₀ (by norm_num), zpow_sub₀ (by norm_num), zpow_natCast]
  field_simp

/-- relative error at most `2^-p` -/
theorem rnd_err (p : ℕ) (q : ℚ) : |rnd p q - q| * 2 ^ p ≤ |q| := by
  unfold rnd
  split
  · next h => simp [h]
  · next h =>
    have hu := ulp_pos p q
    have hn := roundEven_near (q / ulp p q)
    have e : (roundEven (q / ulp p q) : ℚ) * ulp p q - q = ((roundEven (q / ulp p q) : ℚ) - q / ulp p q) * ulp p q := by
      field_simp
    rw [e, abs_mul, abs_of_pos hu, mul_assoc, ulp_eq]
    have := (log_bounds h).1
    have hz : (0 : ℚ) < 2 ^ (Int.log 2 |q|) := by positivity
    calc _ ≤ 1 / 2 * (2 * (2 : ℚ) ^ (Int.log 2 |q|)) := mul_le_mul_of_nonneg_right hn (by positivity)
      _ ≤ |q| := by linarith

theorem rnd_zero (p : ℕ) : rnd p 0 = 0 := by simp [rnd]

/-- numbers with at most `p` significant bits are not changed -/
theorem rnd_exact (p : ℕ) (hp : 1 ≤ p) (m : ℤ) (k : ℤ) (hm : |m| ≤ 2 ^ p) : rnd p (m * 2 ^ k) = m * 2 ^ k := by
  unfold rnd
  split
  · next h => exact h.symm
  · next h =>
    set q : ℚ := m * 2 ^ k with hq
    -- q is an integer multiple of its ulp
    have hb := log_bounds h
    have hqa : |q| ≤ 2 ^ ((p : ℤ) + k) := by
      rw [hq, abs_mul, abs_of_pos (by positivity : (0 : ℚ) < 2 ^ k), zpow_add₀ (by norm_num), zpow_natCast]
      have : ((|m| : ℤ) : ℚ) ≤ 2 ^ p := by exact_mod_cast hm
      rw [Int.cast_abs] at this
      exact mul_le_mul_of_nonneg_right this (by positivity)
    have hle : Int.log 2 |q| ≤ p + k := by
      have h1 := hb.1.trans hqa
      exact (zpow_le_zpow_iff_right₀ (by norm_num : (1 : ℚ) < 2)).1 h1
    obtain ⟨n, hn⟩ : ∃ n : ℤ, q / ulp p q = n := by
      rcases lt_or_eq_of_le hle with hlt | heq
      · -- ulp divides 2^k
        have hd : 0 ≤ k - (Int.log 2 |q| - p + 1) := by omega
        refine ⟨m * 2 ^ (k - (Int.log 2 |q| - p + 1)).toNat, ?_⟩
        unfold ulp
        rw [div_eq_iff (by positivity), hq]
        push_cast
        rw [mul_assoc, ← zpow_natCast, Int.toNat_of_nonneg hd, ← zpow_add₀ (by norm_num), hq]
        congr 2
        ring
      · -- |q| = 2^(p+k)
        have hm2 : |q| = 2 ^ ((p : ℤ) + k) := le_antisymm hqa (by rw [← heq]; exact hb.1)
        have hu : ulp p q = 2 ^ (k + 1) := by unfold ulp; rw [heq]; congr 1; ring
        have hpow : (2 : ℚ) ^ ((p : ℤ) + k) / 2 ^ (k + 1) = 2 ^ (p - 1) := by
          rw [div_eq_iff (by positivity), ← zpow_natCast, ← zpow_add₀ (by norm_num)]
          congr 1
          have : ((p - 1 : ℕ) : ℤ) = p - 1 := by omega
          rw [this]; ring
        rcases eq_or_eq_neg_of_abs_eq hm2 with h' | h'
        · exact ⟨2 ^ (p - 1), by rw [hu, h', hpow]; push_cast; rfl⟩
        · exact ⟨-2 ^ (p - 1), by rw [hu, h', neg_div, hpow]; push_cast; rfl⟩
    rw [hn, roundEven_int, ← hn]
    field_simp [(ulp_pos p q).ne']

theorem rnd_neg (p : ℕ) (q : ℚ) : rnd p (-q) = -rnd p q := by
  unfold rnd
  by_cases h : q = 0
  · simp [h]
  · have hu : ulp p (-q) = ulp p q := by unfold ulp; rw [abs_neg]
    rw [if_neg (by simpa using h), if_neg h, hu, neg_div]
    have : roundEven (-(q / ulp p q)) = -roundEven (q / ulp p q) := by
      generalize q / ulp p q = r
      have h1 := Int.floor_le r
      have h2 := Int.lt_floor_add_one r
      by_cases hi : r = ⌊r⌋
      · rw [hi, show -((⌊r⌋ : ℤ) : ℚ) = ((-⌊r⌋ : ℤ) : ℚ) by push_cast; rfl, roundEven_int, roundEven_int]
      · have h3 : (⌊r⌋ : ℚ) < r := lt_of_le_of_ne h1 (Ne.symm hi)
        have hf : ⌊-r⌋ = -⌊r⌋ - 1 := by
          rw [Int.floor_eq_iff]; push_cast; constructor <;> linarith
        unfold roundEven
        simp only [hf]
        push_cast
        have e : -r - (-(⌊r⌋ : ℚ) - 1) = 1 - (r - ⌊r⌋) := by ring
        rw [e]
        generalize ⌊r⌋ = f at *
        split_ifs <;> first | omega | (exfalso; linarith)
    rw [this]; push_cast; ring

/-- the sign is kept -/
theorem rnd_nonneg (p : ℕ) {q : ℚ} (h : 0 ≤ q) : 0 ≤ rnd p q := by
  unfold rnd
  split
  · exact le_refl _
  · have hu := ulp_pos p q
    have : (0 : ℤ) ≤ roundEven (q / ulp p q) := le_roundEven (by push_cast; positivity)
    have : (0 : ℚ) ≤ roundEven (q / ulp p q) := by exact_mod_cast this
    positivity

theorem rnd_binade (p : ℕ) (hp : 1 ≤ p) {q : ℚ} (h : 0 < q) :
    (2 : ℚ) ^ (Int.log 2 q) ≤ rnd p q ∧ rnd p q ≤ 2 ^ (Int.log 2 q + 1) := by
  have hb := log_bounds h.ne'
  rw [abs_of_pos h] at hb
  have hu := ulp_pos p q
  have hue : ulp p q = 2 ^ (Int.log 2 q - p + 1) := by unfold ulp; rw [abs_of_pos h]
  have e1 : (2 : ℚ) ^ (Int.log 2 q) = ((2 ^ (p - 1) : ℤ) : ℚ) * ulp p q := by
    rw [hue]; push_cast
    rw [← zpow_natCast, ← zpow_add₀ (by norm_num)]
    congr 1
    have : ((p - 1 : ℕ) : ℤ) = p - 1 := by omega
    rw [this]; ring
  have e2 : (2 : ℚ) ^ (Int.log 2 q + 1) = ((2 ^ p : ℤ) : ℚ) * ulp p q := by
    rw [hue]; push_cast
    rw [← zpow_natCast, ← zpow_add₀ (by norm_num)]
    congr 1
    ring
  unfold rnd
  rw [if_neg h.ne', e1, e2]
  constructor
  · refine mul_le_mul_of_nonneg_right ?_ hu.le
    have : (2 ^ (p - 1) : ℤ) ≤ roundEven (q / ulp p q) := le_roundEven (by rw [le_div_iff₀ hu, ← e1]; exact hb.1)
    exact_mod_cast this
  · refine mul_le_mul_of_nonneg_right ?_ hu.le
    have : roundEven (q / ulp p q) ≤ (2 ^ p : ℤ) := roundEven_le (by rw [div_le_iff₀ hu, ← e2]; exact hb.2.le)
    exact_mod_cast this

theorem rnd_mono_pos (p : ℕ) (hp : 1 ≤ p) {a b : ℚ} (ha : 0 < a) (h : a ≤ b) : rnd p a ≤ rnd p b := by
  have hb : 0 < b := ha.trans_le h
  have hl : Int.log 2 a ≤ Int.log 2 b := Int.log_mono_right ha h
  rcases hl.lt_or_eq with hlt | heq
  · have h1 := (rnd_binade p hp ha).2
    have h2 := (rnd_binade p hp hb).1
    refine h1.trans (le_trans ?_ h2)
    exact (zpow_le_zpow_iff_right₀ (by norm_num)).2 (by omega)
  · have hu : ulp p a = ulp p b := by unfold ulp; rw [abs_of_pos ha, abs_of_pos hb, heq]
    unfold rnd
    rw [if_neg ha.ne', if_neg hb.ne', hu]
    have hub := ulp_pos p b
    refine mul_le_mul_of_nonneg_right ?_ hub.le
    have : roundEven (a / ulp p b) ≤ roundEven (b / ulp p b) := roundEven_mono (div_le_div_of_nonneg_right h hub.le)
    exact_mod_cast this

/-- rounding is monotone -/
theorem rnd_mono (p : ℕ) (hp : 1 ≤ p) {a b : ℚ} (h : a ≤ b) : rnd p a ≤ rnd p b := by
  rcases lt_trichotomy a 0 with ha | ha | ha
  · rcases lt_or_ge b 0 with hb | hb
    · have := rnd_mono_pos p hp (a := -b) (b := -a) (by linarith) (by linarith)
      rw [rnd_neg, rnd_neg] at this
      linarith
    · have h1 := rnd_nonneg p hb
      have h2 := rnd_nonneg p (q := -a) (by linarith)
      rw [rnd_neg] at h2
      linarith
  · subst ha; rw [rnd_zero]; exact rnd_nonneg p h
  · exact rnd_mono_pos p hp ha h

theorem rnd_nat (p : ℕ) (hp : 1 ≤ p) (n : ℕ) (h : n ≤ 2 ^ p) : rnd p n = n := by
  have := rnd_exact p hp n 0 (by rw [Nat.abs_cast]; exact_mod_cast h)
  simpa using this

/-- half an ulp above one rounds to one -/
theorem rnd_le_one (p : ℕ) (hp : 2 ≤ p) {q : ℚ} (h : q * 2 ^ p ≤ 2 ^ p + 1) : rnd p q ≤ 1 := by
  have hp' : (0 : ℚ) < 2 ^ p := by positivity
  have hq : q ≤ (2 ^ p + 1) / 2 ^ p := by rw [le_div_iff₀ hp']; exact h
  refine (rnd_mono p (by omega) hq).trans ?_
  set r : ℚ := (2 ^ p + 1) / 2 ^ p with hr
  have hr1 : 1 < r := by rw [hr, lt_div_iff₀ hp']; linarith
  have h4 : (4 : ℚ) ≤ 2 ^ p := by
    calc (4 : ℚ) = 2 ^ 2 := by norm_num
      _ ≤ 2 ^ p := pow_le_pow_right₀ (by norm_num) hp
  have hr2 : r < 2 := by rw [hr, div_lt_iff₀ hp']; linarith
  have hlog : Int.log 2 r = 0 := by
    have h1 := log_bounds (q := r) (by linarith)
    rw [abs_of_pos (by linarith)] at h1
    have a1 : Int.log 2 r < 1 := by
      refine (zpow_lt_zpow_iff_right₀ (by norm_num : (1 : ℚ) < 2)).1 (lt_of_le_of_lt h1.1 (by simpa using hr2))
    have a2 : 0 < Int.log 2 r + 1 := by
      refine (zpow_lt_zpow_iff_right₀ (by norm_num : (1 : ℚ) < 2)).1 (lt_trans (by simpa using hr1) h1.2)
    omega
  have hu : ulp p r * 2 ^ p = 2 := by rw [ulp_eq, abs_of_pos (by linarith), hlog]; norm_num
  have hup := ulp_pos p r
  have hdiv : r / ulp p r = ((2 ^ (p - 1) : ℤ) : ℚ) + 1 / 2 := by
    rw [div_eq_iff hup.ne', hr, div_eq_iff hp'.ne', mul_assoc, hu]
    push_cast
    have : (2 : ℚ) ^ p = 2 ^ (p - 1) * 2 := by rw [← pow_succ]; congr 1; omega
    rw [this]; ring
  unfold rnd
  rw [if_neg (by linarith), hdiv]
  have : roundEven (((2 ^ (p - 1) : ℤ) : ℚ) + 1 / 2) = 2 ^ (p - 1) := by
    unfold roundEven
    have hf : ⌊((2 ^ (p - 1) : ℤ) : ℚ) + 1 / 2⌋ = 2 ^ (p - 1) := by
      rw [Int.floor_eq_iff]; constructor <;> push_cast <;> linarith
    simp only [hf]
    rw [if_neg (by push_cast; linarith), if_neg (by push_cast; linarith), if_pos]
    have : (2 : ℤ) ^ (p - 1) = 2 * 2 ^ (p - 2) := by rw [← pow_succ']; congr 1; omega
    rw [this]; omega
  rw [this]
  have e : ((2 ^ (p - 1) : ℤ) : ℚ) * ulp p r = 1 := by
    have h2 : (2 : ℚ) ^ p = 2 ^ (p - 1) * 2 := by rw [← pow_succ]; congr 1; omega
    rw [h2] at hu
    push_cast
    linarith
  rw [e]

/-- how to compute a rounding: name the binade -/
theorem rnd_eval (p : ℕ) (q : ℚ) (e : ℤ) (h1 : 2 ^ e ≤ q) (h2 : q < 2 ^ (e + 1)) :
    rnd p q = roundEven (q / 2 ^ (e - p + 1)) * 2 ^ (e - p + 1) := by
  have hq : 0 < q := lt_of_lt_of_le (by positivity) h1
  have h := log_bounds hq.ne'
  rw [abs_of_pos hq] at h
  have a1 : Int.log 2 q < e + 1 :=
    (zpow_lt_zpow_iff_right₀ (by norm_num : (1 : ℚ) < 2)).1 (lt_of_le_of_lt h.1 h2)
  have a2 : e < Int.log 2 q + 1 :=
    (zpow_lt_zpow_iff_right₀ (by norm_num : (1 : ℚ) < 2)).1 (lt_of_le_of_lt h1 h.2)
  have he : Int.log 2 q = e := by omega
  unfold rnd ulp
  rw [if_neg hq.ne', abs_of_pos hq, he]

end Verif.Proofs.Float
