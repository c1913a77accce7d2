import Verif.Model.FloatLength
import Verif.Props.FloatVector
import Verif.Proofs.Kahan
import Mathlib.Analysis.SpecialFunctions.Pow.Real

/-! # Lemmas about square roots and lengths -/

namespace Verif.Proofs.FloatLength

open Verif.Spec.Parts Verif.Spec.IeeeArith Verif.Spec.FloatFormat Verif.Spec.FloatSqrt Verif.Model.VectorStore Verif.Model.FloatVector Verif.Model.FloatLength Verif.Proofs.FloatVector Verif.Proofs.VectorStore

/-- The integer is within one half of the root. -/
theorem rootUnits_near {N : ℚ} (h : 0 ≤ N) : |(rootUnits N : ℝ) - √(N : ℝ)| ≤ 1 / 2 := by
  have h1 : Nat.sqrt ⌊N⌋₊ ^ 2 ≤ ⌊N⌋₊ := Nat.sqrt_le' _
  have h2 : ⌊N⌋₊ < (Nat.sqrt ⌊N⌋₊ + 1) ^ 2 := Nat.lt_succ_sqrt' _
  have h3 : ((Nat.sqrt ⌊N⌋₊ : ℕ) : ℚ) ^ 2 ≤ N := by
    have := Nat.floor_le h
    have e : ((Nat.sqrt ⌊N⌋₊ ^ 2 : ℕ) : ℚ) ≤ (⌊N⌋₊ : ℚ) := by exact_mod_cast h1
    push_cast at e
    linarith
  have h4 : N < ((Nat.sqrt ⌊N⌋₊ : ℕ) + 1 : ℚ) ^ 2 := by
    have := Nat.lt_floor_add_one N
    have e : ((⌊N⌋₊ + 1 : ℕ) : ℚ) ≤ (((Nat.sqrt ⌊N⌋₊ + 1) ^ 2 : ℕ) : ℚ) := by exact_mod_cast h2
    push_cast at e
    linarith
  have hN : (0 : ℝ) ≤ (N : ℝ) := by exact_mod_cast h
  unfold rootUnits
  set k := Nat.sqrt ⌊N⌋₊
  clear_value k
  have lo : ∀ a : ℚ, 0 ≤ a → a ^ 2 ≤ N → (a : ℝ) ≤ √(N : ℝ) := fun a ha h => Real.le_sqrt_of_sq_le (by exact_mod_cast h)
  have hi : ∀ a : ℚ, 0 ≤ a → N ≤ a ^ 2 → √(N : ℝ) ≤ (a : ℝ) := fun a ha h => Real.sqrt_le_iff.2 ⟨by exact_mod_cast ha, by exact_mod_cast h⟩
  have l1 := lo k (by positivity) h3
  have l2 := hi (k + 1) (by positivity) h4.le
  push_cast at l1 l2
  dsimp only
  have hk : (0 : ℚ) ≤ k + 1 / 2 := by positivity
  split_ifs with a b c
  · have := hi _ hk a.le
    push_cast at this
    rw [abs_le]; constructor <;> linarith
  · have := lo _ hk b.le
    push_cast at this ⊢
    rw [abs_le]; constructor <;> linarith
  · have := hi _ hk (not_lt.1 b)
    push_cast at this
    rw [abs_le]; constructor <;> linarith
  · have := lo _ hk (not_lt.1 a)
    push_cast at this ⊢
    rw [abs_le]; constructor <;> linarith

theorem root_err (f : Format) {q : ℚ} (h : 0 < q) : |(root f.p q : ℝ) - √(q : ℝ)| ≤ f.u * √(q : ℝ) := by
  unfold root
  dsimp only
  set e := Int.log 2 q / 2
  set t : ℚ := 2 ^ (e - f.p + 1) with ht
  have t0 : 0 < t := by positivity
  have h1 : (2 : ℚ) ^ (Int.log 2 q) ≤ q := by exact_mod_cast Int.zpow_log_le_self (by norm_num) h
  have h2 : (2 : ℚ) ^ (2 * e) ≤ q := le_trans (zpow_le_zpow_right₀ (by norm_num) (by omega)) h1
  have h3 : (2 : ℚ) ^ e = t * 2 ^ f.p / 2 := by
    rw [ht, zpow_add₀ (by norm_num), zpow_sub₀ (by norm_num), zpow_natCast]
    field_simp
  have near := rootUnits_near (N := q / t ^ 2) (by positivity)
  have hs : √((q / t ^ 2 : ℚ) : ℝ) = √(q : ℝ) / t := by
    push_cast
    rw [Real.sqrt_div' _ (by positivity), Real.sqrt_sq (by exact_mod_cast t0.le)]
  have tR : (0 : ℝ) < t := by exact_mod_cast t0
  rw [hs] at near
  have big : (2 : ℝ) ^ f.p * t / 2 ≤ √(q : ℝ) := by
    apply Real.le_sqrt_of_sq_le
    have : (t * 2 ^ f.p / 2) ^ 2 ≤ q := by
      rw [← h3, ← zpow_natCast, ← zpow_mul, mul_comm]; exact_mod_cast h2
    have e : ((((t * 2 ^ f.p / 2) ^ 2 : ℚ)) : ℝ) ≤ (q : ℝ) := by exact_mod_cast this
    push_cast at e
    linarith [e, show ((2 : ℝ) ^ f.p * t / 2) ^ 2 = ((t : ℝ) * 2 ^ f.p / 2) ^ 2 by ring]
  have e1 : ((rootUnits (q / t ^ 2) * t : ℚ) : ℝ) - √(q : ℝ) = (rootUnits (q / t ^ 2) - √(q : ℝ) / t) * t := by
    push_cast
    field_simp
  rw [e1, abs_mul, abs_of_pos tR]
  have e2 : (f.u : ℝ) * (2 ^ f.p * t / 2) = 1 / 2 * t := by
    unfold Format.u
    push_cast
    field_simp
  have hu : (0 : ℝ) ≤ f.u := by exact_mod_cast (u_pos f).le
  calc _ ≤ 1 / 2 * (t : ℝ) := mul_le_mul_of_nonneg_right near tR.le
    _ ≤ _ := by rw [← e2]; exact mul_le_mul_of_nonneg_left big hu

theorem root_sq (f : Format) (hp : 1 ≤ f.p) {q : ℚ} (h : 0 < q) : 0 < root f.p q ∧ (1 - f.u) ^ 2 * q ≤ root f.p q ^ 2 ∧ root f.p q ^ 2 ≤ (1 + f.u) ^ 2 * q := by
  have e := root_err f h
  have hu := u_pos f
  have hu1 : f.u ≤ 1 / 2 := by
    unfold Format.u
    have : (2 : ℚ) ^ 1 ≤ 2 ^ f.p := pow_le_pow_right₀ (by norm_num) hp
    rw [div_le_div_iff₀ (by positivity) (by norm_num)]
    linarith
  have uR : (0 : ℝ) < f.u := by exact_mod_cast hu
  have uR1 : (f.u : ℝ) ≤ 1 / 2 := by
    have : ((f.u : ℚ) : ℝ) ≤ ((1 / 2 : ℚ) : ℝ) := by exact_mod_cast hu1
    push_cast at this
    exact this
  have qR : (0 : ℝ) < q := by exact_mod_cast h
  set s := √(q : ℝ) with hs
  have s0 : 0 < s := Real.sqrt_pos.2 qR
  have ss : s ^ 2 = q := Real.sq_sqrt qR.le
  rw [abs_le] at e
  have a1 : (1 - f.u : ℝ) * s ≤ root f.p q := by linarith [e.1]
  have a2 : (root f.p q : ℝ) ≤ (1 + f.u) * s := by linarith [e.2]
  have a0 : (0 : ℝ) < root f.p q := lt_of_lt_of_le (mul_pos (by linarith) s0) a1
  refine ⟨by exact_mod_cast a0, ?_, ?_⟩
  · have : ((1 - f.u : ℝ) * s) ^ 2 ≤ (root f.p q : ℝ) ^ 2 := pow_le_pow_left₀ (mul_nonneg (by linarith) s0.le) a1 2
    rw [mul_pow, ss] at this
    exact_mod_cast this
  · have : (root f.p q : ℝ) ^ 2 ≤ ((1 + f.u : ℝ) * s) ^ 2 := pow_le_pow_left₀ a0.le a2 2
    rw [mul_pow, ss] at this
    exact_mod_cast this

/-- The exact sum of squares. -/
def sqSum (xs : List ℚ) : ℚ := (xs.map (· ^ 2)).sum

theorem sqSum_nonneg (xs : List ℚ) : 0 ≤ sqSum xs := by
  unfold sqSum
  induction xs with
  | nil => simp
  | cons a l ih => simp only [List.map_cons, List.sum_cons]; positivity

theorem tiny_eq (f : Format) : f.tiny = f.u * 2 ^ f.emin := by
  unfold Format.tiny Format.u
  rw [zpow_sub₀ (by norm_num), zpow_natCast]
  ring

/-- Underflow is a relative error of less than one more rounding. -/
theorem under (f : Format) (n : ℕ) {Q : ℚ} (hQ : 0 ≤ Q) (hn : n * f.u ≤ 1) (hlo : 2 ^ f.emin ≤ f.u * Q) :
    ((1 + f.u) ^ n - 1) * Q + n * f.tiny * (1 + f.u) ^ (n - 1) ≤ ((1 + f.u) ^ (n + 1) - 1) * Q := by
  have hu := u_pos f
  have h1 : (n : ℚ) * f.tiny * (1 + f.u) ^ (n - 1) ≤ f.u * (1 + f.u) ^ n * Q := by
    have a1 : f.tiny ≤ f.u * (f.u * Q) := by rw [tiny_eq]; exact mul_le_mul_of_nonneg_left hlo hu.le
    have a2 : (1 + f.u) ^ (n - 1) ≤ (1 + f.u) ^ n := pow_le_pow_right₀ (by linarith) (by omega)
    have a3 : (n : ℚ) * f.tiny ≤ f.u * Q := by
      calc (n : ℚ) * f.tiny ≤ n * (f.u * (f.u * Q)) := mul_le_mul_of_nonneg_left a1 (by positivity)
        _ = n * f.u * (f.u * Q) := by ring
        _ ≤ 1 * (f.u * Q) := mul_le_mul_of_nonneg_right hn (by positivity)
        _ = f.u * Q := one_mul _
    calc (n : ℚ) * f.tiny * (1 + f.u) ^ (n - 1) ≤ (f.u * Q) * (1 + f.u) ^ n := mul_le_mul a3 a2 (by positivity) (by positivity)
      _ = _ := by ring
  have h2 : ((1 + f.u) ^ (n + 1) - 1) * Q = ((1 + f.u) ^ n - 1) * Q + f.u * (1 + f.u) ^ n * Q := by ring
  linarith

theorem lensq_rel (f : Format) {n : ℕ} (c : Store Bool n) (hc : Contraction c) (v : Store Number n) (xs : List ℚ)
    (hv : (parts v).map value = xs.map some) (hn : n * f.u ≤ 1) (hlo : 2 ^ f.emin ≤ f.u * sqSum xs) (hg : (1 + f.u) ^ (n + 1) * sqSum xs ≤ f.greatest) :
    ∃ r S, lengthSquared f c v = some r ∧ value r = some S ∧ |S - sqSum xs| ≤ ((1 + f.u) ^ (n + 1) - 1) * sqSum xs := by
  have hu := under f n (sqSum_nonneg xs) hn hlo
  obtain ⟨r, S, h1, h2, h3⟩ := Props.FloatVector.C148_length_squared f c hc v xs hv (by
    have e : (xs.map (· ^ 2)).sum = sqSum xs := rfl
    rw [e]; linarith)
  exact ⟨r, S, h1, h2, h3.trans hu⟩

theorem sqrt_value (f : Format) {r : Number} {S : ℚ} (h : value r = some S) (h0 : 0 < S) : sqrt f r = .fin false (root f.p S) := by
  cases r with
  | nan => simp [value] at h
  | inf s => simp [value] at h
  | fin s a =>
    simp only [value, Option.some.injEq] at h
    have hq : a ≠ 0 := by rintro rfl; simp [signed] at h; linarith
    simp only [sqrt, if_neg hq, h, if_neg (not_lt.2 h0.le)]

theorem root_rel (f : Format) {n : ℕ} {Q S : ℚ} (hQ : 0 < Q) (hS0 : 0 < S) (hS : |S - Q| ≤ ((1 + f.u) ^ n - 1) * Q) :
    |(root f.p S : ℝ) - √(Q : ℝ)| ≤ ((1 + f.u) ^ (n + 1) - 1) * √(Q : ℝ) := by
  have uR : (0 : ℝ) < f.u := by exact_mod_cast u_pos f
  have qR : (0 : ℝ) < Q := by exact_mod_cast hQ
  have sR : (0 : ℝ) < S := by exact_mod_cast hS0
  have e := root_err f hS0
  have g1 : (1 : ℝ) ≤ (1 + f.u) ^ n := one_le_pow₀ (by linarith)
  have hS' : |(S : ℝ) - Q| ≤ ((1 + f.u) ^ n - 1) * Q := by exact_mod_cast hS
  set g := (1 + (f.u : ℝ)) ^ n with hg
  set a := √(Q : ℝ) with ha
  set b := √(S : ℝ) with hb
  have a0 : 0 < a := Real.sqrt_pos.2 qR
  have b0 : 0 < b := Real.sqrt_pos.2 sR
  have aa : a ^ 2 = Q := Real.sq_sqrt qR.le
  have bb : b ^ 2 = S := Real.sq_sqrt sR.le
  have h1 : |b - a| ≤ (g - 1) * a := by
    have h2 : |b - a| * (b + a) ≤ (g - 1) * a ^ 2 := by
      rw [← abs_of_pos (by positivity : 0 < b + a), ← abs_mul, show (b - a) * (b + a) = b ^ 2 - a ^ 2 by ring, aa, bb]
      exact hS'
    have h3 : |b - a| * a ≤ |b - a| * (b + a) := mul_le_mul_of_nonneg_left (by linarith) (abs_nonneg _)
    have h4 : |b - a| * a ≤ (g - 1) * a * a := by linarith [h3.trans h2, show (g - 1) * a ^ 2 = (g - 1) * a * a by ring]
    exact le_of_mul_le_mul_right h4 a0
  have h5 : b ≤ g * a := by have := (abs_le.1 h1).2; linarith
  have h6 : |(root f.p S : ℝ) - a| ≤ f.u * b + (g - 1) * a := by
    have := abs_add_le ((root f.p S : ℝ) - b) (b - a)
    rw [sub_add_sub_cancel] at this
    linarith
  have h7 : f.u * b ≤ f.u * (g * a) := mul_le_mul_of_nonneg_left h5 uR.le
  rw [show (1 + (f.u : ℝ)) ^ (n + 1) = g * (1 + f.u) by rw [hg]; ring]
  linarith

theorem pos_of_rel {f : Format} {k : ℕ} {Q S : ℚ} (hQ : 0 < Q) (hk : (1 + f.u) ^ k < 2) (h : |S - Q| ≤ ((1 + f.u) ^ k - 1) * Q) : 0 < S := by
  have h1 := (abs_le.1 h).1
  have h2 : ((1 + f.u) ^ k - 1) * Q < 1 * Q := mul_lt_mul_of_pos_right (by linarith) hQ
  linarith

theorem u_le {f : Format} (h : Usual f) : f.u ≤ 1 / 8 := by
  unfold Format.u
  have : (2 : ℚ) ^ 3 ≤ 2 ^ f.p := pow_le_pow_right₀ (by norm_num) h.bits
  rw [div_le_div_iff₀ (by positivity) (by norm_num)]
  linarith

theorem four_le {f : Format} (h : Usual f) : 4 ≤ f.greatest := by
  refine le_trans ?_ h.wide
  have : (2 : ℚ) ^ (2 : ℤ) ≤ 2 ^ (-f.emin) := zpow_le_zpow_right₀ (by norm_num) (by have := h.least; have := h.bits; omega)
  rwa [show (2 : ℚ) ^ (2 : ℤ) = 4 by norm_num] at this

theorem emin_le {f : Format} (h : Usual f) : (2 : ℚ) ^ f.emin ≤ 1 / 4 := by
  have : (2 : ℚ) ^ f.emin ≤ 2 ^ (-2 : ℤ) := zpow_le_zpow_right₀ (by norm_num) (by have := h.least; have := h.bits; omega)
  norm_num at this
  linarith

/-- The factor by which a vector is scaled to be normalized. -/
theorem factor {f : Format} (hf : Usual f) {k : ℕ} {Q S : ℚ} (hk : (1 + f.u) ^ k ≤ 3 / 2) (hlo : 2 ^ f.emin ≤ f.u * Q)
    (hg : (1 + f.u) ^ k * Q ≤ f.greatest) (hS : |S - Q| ≤ ((1 + f.u) ^ k - 1) * Q) :
    ∃ w, 0 < w ∧ value (reciprocal f (.fin false (root f.p S))) = some w ∧
      (1 - f.u) ^ 2 / (1 + f.u) ^ (k + 2) ≤ w ^ 2 * Q ∧ w ^ 2 * Q ≤ (1 + f.u) ^ 2 / ((1 - f.u) ^ 2 * (2 - (1 + f.u) ^ k)) := by
  have hu := u_pos f
  have hu8 := u_le hf
  have e0 : (0 : ℚ) < 2 ^ f.emin := by positivity
  have hQ : 0 < Q := by
    by_contra h
    have : f.u * Q ≤ 0 := mul_nonpos_of_nonneg_of_nonpos hu.le (not_lt.1 h)
    linarith
  have g1 : 1 ≤ (1 + f.u) ^ k := one_le f k
  set g := (1 + f.u) ^ k with hgd
  have S0 : 0 < S := pos_of_rel (k := k) hQ (by linarith) hS
  obtain ⟨r0, r1, r2⟩ := root_sq f (by have := hf.bits; omega) S0
  set r := root f.p S with hr
  clear_value r
  have hS2 : S ≤ g * Q := by have := (abs_le.1 hS).2; linarith
  have hS1 : (2 - g) * Q ≤ S := by have := (abs_le.1 hS).1; linarith
  -- the root is not so large that its reciprocal is subnormal
  have rle : r ≤ 2 ^ (-f.emin) := by
    apply le_of_sq_le_sq _ (by positivity)
    have a1 : (1 + f.u) ^ 2 ≤ 4 := by nlinarith
    have a2 : (1 + f.u) ^ 2 * S ≤ 4 * f.greatest := mul_le_mul a1 (hS2.trans hg) S0.le (by norm_num)
    have a3 : ((2 : ℚ) ^ (-f.emin)) ^ 2 = 2 ^ (-2 * f.emin) := by
      rw [← zpow_natCast, ← zpow_mul]; congr 1; push_cast; ring
    rw [a3]
    exact r2.trans (a2.trans hf.narrow)
  have inv : (2 : ℚ) ^ f.emin ≤ 1 / r := by
    rw [le_div_iff₀ r0]
    calc (2 : ℚ) ^ f.emin * r ≤ 2 ^ f.emin * 2 ^ (-f.emin) := mul_le_mul_of_nonneg_left rle e0.le
      _ = 1 := by rw [← zpow_add₀ (by norm_num)]; simp
  have ir : 0 < 1 / r := by positivity
  have err := err_normal f (z := 1 / r) (by rwa [abs_of_pos ir])
  rw [abs_of_pos ir] at err
  set w := rd f (1 / r) with hw
  have w1 : (1 - f.u) * (1 / r) ≤ w := by have := (abs_le.1 err).1; linarith
  have w2 : w ≤ (1 + f.u) * (1 / r) := by have := (abs_le.1 err).2; linarith
  have w0 : 0 < w := lt_of_lt_of_le (mul_pos (by linarith) ir) w1
  have i1 : (1 / r) ^ 2 * ((1 - f.u) ^ 2 * S) ≤ 1 := by
    calc (1 / r) ^ 2 * ((1 - f.u) ^ 2 * S) ≤ (1 / r) ^ 2 * r ^ 2 := mul_le_mul_of_nonneg_left r1 (by positivity)
      _ = 1 := by field_simp
  have i2 : 1 ≤ (1 / r) ^ 2 * ((1 + f.u) ^ 2 * S) := by
    calc 1 = (1 / r) ^ 2 * r ^ 2 := by field_simp
      _ ≤ (1 / r) ^ 2 * ((1 + f.u) ^ 2 * S) := mul_le_mul_of_nonneg_left r2 (by positivity)
  have q1 : w ^ 2 ≤ (1 + f.u) ^ 2 * (1 / r) ^ 2 := by rw [← mul_pow]; exact pow_le_pow_left₀ w0.le w2 2
  have q2 : (1 - f.u) ^ 2 * (1 / r) ^ 2 ≤ w ^ 2 := by rw [← mul_pow]; exact pow_le_pow_left₀ (mul_nonneg (by linarith) ir.le) w1 2
  have d0 : 0 < (1 - f.u) ^ 2 * (2 - g) := mul_pos (pow_pos (by linarith) 2) (by linarith)
  have up : w ^ 2 * Q ≤ (1 + f.u) ^ 2 / ((1 - f.u) ^ 2 * (2 - g)) := by
    rw [le_div_iff₀ d0]
    calc w ^ 2 * Q * ((1 - f.u) ^ 2 * (2 - g)) = w ^ 2 * ((1 - f.u) ^ 2 * ((2 - g) * Q)) := by ring
      _ ≤ (1 + f.u) ^ 2 * (1 / r) ^ 2 * ((1 - f.u) ^ 2 * S) :=
        mul_le_mul q1 (mul_le_mul_of_nonneg_left hS1 (by positivity)) (mul_nonneg (by positivity) (mul_nonneg (by linarith) hQ.le)) (by positivity)
      _ = (1 + f.u) ^ 2 * ((1 / r) ^ 2 * ((1 - f.u) ^ 2 * S)) := by ring
      _ ≤ (1 + f.u) ^ 2 * 1 := mul_le_mul_of_nonneg_left i1 (by positivity)
      _ = _ := mul_one _
  have lo : (1 - f.u) ^ 2 / (1 + f.u) ^ (k + 2) ≤ w ^ 2 * Q := by
    rw [div_le_iff₀ (by positivity), pow_add, ← hgd]
    calc (1 - f.u) ^ 2 = (1 - f.u) ^ 2 * 1 := (mul_one _).symm
      _ ≤ (1 - f.u) ^ 2 * ((1 / r) ^ 2 * ((1 + f.u) ^ 2 * S)) := mul_le_mul_of_nonneg_left i2 (by positivity)
      _ = (1 - f.u) ^ 2 * (1 / r) ^ 2 * ((1 + f.u) ^ 2 * S) := by ring
      _ ≤ w ^ 2 * ((1 + f.u) ^ 2 * (g * Q)) := mul_le_mul q2 (mul_le_mul_of_nonneg_left hS2 (by positivity)) (by positivity) (by positivity)
      _ = _ := by ring
  refine ⟨w, w0, ?_, lo, up⟩
  -- the reciprocal does not overflow
  have wle : w ≤ f.greatest := by
    refine le_trans ?_ hf.wide
    apply le_of_sq_le_sq _ (by positivity)
    have a1 : (1 + f.u) ^ 2 / ((1 - f.u) ^ 2 * (2 - g)) ≤ 4 := by
      rw [div_le_iff₀ d0]
      have b1 : (1 + f.u) ^ 2 ≤ (9 / 8) ^ 2 := pow_le_pow_left₀ (by linarith) (by linarith) 2
      have b2 : (7 / 8 : ℚ) ^ 2 ≤ (1 - f.u) ^ 2 := pow_le_pow_left₀ (by norm_num) (by linarith) 2
      have b3 : (7 / 8 : ℚ) ^ 2 * (1 / 2) ≤ (1 - f.u) ^ 2 * (2 - g) := mul_le_mul b2 (by linarith) (by norm_num) (by positivity)
      norm_num at b1 b3
      linarith
    have a2 : w ^ 2 * Q ≤ 4 := up.trans a1
    have a3 : 8 * 2 ^ f.emin ≤ Q := by
      have : f.u * Q ≤ 1 / 8 * Q := mul_le_mul_of_nonneg_right hu8 hQ.le
      linarith
    have a4 : w ^ 2 * (8 * 2 ^ f.emin) ≤ 4 := (mul_le_mul_of_nonneg_left a3 (by positivity)).trans a2
    have a5 : w ^ 2 * 2 ^ f.emin ≤ 2 ^ (-f.emin) * 2 ^ f.emin := by
      have : (2 : ℚ) ^ (-f.emin) * 2 ^ f.emin = 1 := by rw [← zpow_add₀ (by norm_num)]; simp
      linarith
    have a6 : w ^ 2 ≤ 2 ^ (-f.emin) := le_of_mul_le_mul_right a5 e0
    have a7 : (1 : ℚ) ≤ 2 ^ (-f.emin) := one_le_zpow₀ (by norm_num) (by have := hf.least; have := hf.bits; omega)
    nlinarith
  have hv : value ((Number.fin false 1).div (.fin false r)) = some (1 / r) := by
    have := value_div (x := .fin false 1) (y := .fin false r) (X := 1) (Y := r) (by simp [value, signed]) (by simp [value, signed]) r0.ne'
    exact this
  exact value_round f hv (by rw [← hw, abs_of_pos w0]; exact wle)

/-- A scaled vector. -/
theorem scaled {f : Format} (hf : Usual f) {n : ℕ} (v : Store Number n) (xs : List ℚ) (hv : (parts v).map value = xs.map some) {k : Number} {w : ℚ}
    (hk : value k = some w) (h2 : w ^ 2 * sqSum xs ≤ 4) :
    ∃ out, scale f v k = some out ∧ (parts out).map value = (xs.map fun x => rd f (x * w)).map some := by
  obtain ⟨out, h1, h3⟩ := construct1_parts (fun a => some (Op.mul.eval f a k)) (fun a => f.round (a.mul k)) v (fun _ _ => rfl)
  refine ⟨out, h1, ?_⟩
  rw [h3, List.map_map, List.map_map]
  have hx : ∀ x ∈ xs, x ^ 2 ≤ sqSum xs := by
    intro x hx
    unfold sqSum
    exact List.single_le_sum (by simp only [List.mem_map]; rintro _ ⟨y, -, rfl⟩; positivity) _ (List.mem_map_of_mem hx)
  have key : ∀ (l : List Number) (ys : List ℚ), l.map value = ys.map some → (∀ y ∈ ys, y ^ 2 ≤ sqSum xs) →
      l.map (value ∘ fun a => f.round (a.mul k)) = ys.map (some ∘ fun x => rd f (x * w)) := by
    intro l
    induction l with
    | nil => intro ys h _; cases ys with
      | nil => rfl
      | cons y ys => simp at h
    | cons a l ih =>
      intro ys h hb
      cases ys with
      | nil => simp at h
      | cons y ys =>
        simp only [List.map_cons, List.cons.injEq] at h ⊢
        refine ⟨?_, ih ys h.2 fun z hz => hb z (by simp [hz])⟩
        apply value_round f (value_mul h.1 hk)
        have b1 : (y * w) ^ 2 ≤ 2 ^ 2 := by
          rw [mul_pow]
          have := mul_le_mul_of_nonneg_right (hb y (by simp)) (sq_nonneg w)
          linarith
        have b2 : |y * w| ≤ 2 := abs_le_of_sq_le_sq b1 (by norm_num)
        have b3 := err f (y * w)
        have b4 : |rd f (y * w)| ≤ |y * w| + |rd f (y * w) - y * w| := by
          have := abs_add_le (y * w) (rd f (y * w) - y * w)
          rwa [add_sub_cancel] at this
        have b5 : f.u * |y * w| ≤ 1 / 8 * 2 := mul_le_mul (u_le hf) b2 (abs_nonneg _) (by norm_num)
        have b6 : f.tiny ≤ 1 := by
          rw [tiny_eq]
          have := mul_le_mul (u_le hf) (emin_le hf) (by positivity) (by norm_num)
          linarith
        have := four_le hf
        linarith
  exact key _ _ hv hx

/-- The squares of the rounded components of a vector about as long as one. -/
theorem scaled_sq {f : Format} (hf : Usual f) (xs : List ℚ) {w : ℚ} (h2 : w ^ 2 * sqSum xs ≤ 4) :
    |sqSum (xs.map fun x => rd f (x * w)) - w ^ 2 * sqSum xs| ≤ (2 * f.u + f.u ^ 2) * (w ^ 2 * sqSum xs) + 6 * xs.length * f.tiny := by
  have hu := u_pos f
  have hu8 := u_le hf
  have ht := tiny_pos f
  have ht1 : f.tiny ≤ 1 / 32 := by
    rw [tiny_eq]
    have := mul_le_mul (u_le hf) (emin_le hf) (by positivity) (by norm_num)
    linarith
  induction xs with
  | nil => simp [sqSum]
  | cons x xs ih =>
    have e1 : ∀ (y : ℚ) (l : List ℚ), sqSum (y :: l) = y ^ 2 + sqSum l := fun _ _ => rfl
    rw [e1, mul_add] at h2
    have n1 : 0 ≤ w ^ 2 * sqSum xs := mul_nonneg (sq_nonneg w) (sqSum_nonneg xs)
    have n2 : 0 ≤ w ^ 2 * x ^ 2 := by positivity
    have ih := ih (by linarith)
    rw [List.map_cons, e1, e1]
    set a := x * w with ha
    have aa : a ^ 2 = w ^ 2 * x ^ 2 := by rw [ha]; ring
    have b2 : |a| ≤ 2 := abs_le_of_sq_le_sq (by linarith) (by norm_num)
    have b3 := err f a
    set y := rd f a with hy
    have a0 := abs_nonneg a
    have b4 : |y + a| ≤ 2 * |a| + (f.u * |a| + f.tiny) := by
      have h := abs_add_le (y - a) (2 * a)
      rw [show y - a + 2 * a = y + a by ring, abs_mul, abs_two] at h
      linarith
    have b5 : |y ^ 2 - a ^ 2| ≤ (f.u * |a| + f.tiny) * (2 * |a| + (f.u * |a| + f.tiny)) := by
      rw [show y ^ 2 - a ^ 2 = (y - a) * (y + a) by ring, abs_mul]
      exact mul_le_mul b3 b4 (abs_nonneg _) (by positivity)
    have b6 : (f.u * |a| + f.tiny) * (2 * |a| + (f.u * |a| + f.tiny)) = (2 * f.u + f.u ^ 2) * a ^ 2 + f.tiny * (2 * |a| + 2 * f.u * |a| + f.tiny) := by
      rw [← sq_abs a]; ring
    have b7 : f.tiny * (2 * |a| + 2 * f.u * |a| + f.tiny) ≤ f.tiny * 6 := by
      apply mul_le_mul_of_nonneg_left _ ht.le
      have : f.u * |a| ≤ 1 / 8 * 2 := mul_le_mul hu8 b2 a0 (by norm_num)
      linarith
    have b8 := abs_add_le (y ^ 2 - a ^ 2) (sqSum (xs.map fun x => rd f (x * w)) - w ^ 2 * sqSum xs)
    rw [show y ^ 2 + sqSum (xs.map fun x => rd f (x * w)) - w ^ 2 * (x ^ 2 + sqSum xs) =
      y ^ 2 - a ^ 2 + (sqSum (xs.map fun x => rd f (x * w)) - w ^ 2 * sqSum xs) by rw [aa]; ring]
    rw [List.length_cons]
    push_cast
    calc _ ≤ _ := b8
      _ ≤ ((2 * f.u + f.u ^ 2) * a ^ 2 + f.tiny * 6) + ((2 * f.u + f.u ^ 2) * (w ^ 2 * sqSum xs) + 6 * xs.length * f.tiny) := by linarith
      _ = _ := by rw [aa]; ring

theorem abs_less {x e : Number} {X E : ℚ} (hx : value x = some X) (he : value e = some E) (h : |X| < E) :
    Model.Kahan.less (Model.Kahan.abs x) e = true := by
  cases x with
  | nan => simp [value] at hx
  | inf s => simp [value] at hx
  | fin s a =>
    rw [Proofs.Kahan.less_value (X := a) (by simp [Model.Kahan.abs, value, signed]) he]
    simp only [value, Option.some.injEq] at hx
    apply decide_eq_true
    refine lt_of_le_of_lt ?_ h
    rw [← hx]
    unfold signed
    split_ifs
    · rw [abs_neg]; exact le_abs_self a
    · exact le_abs_self a

end Verif.Proofs.FloatLength
