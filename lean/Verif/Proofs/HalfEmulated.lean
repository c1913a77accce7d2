import Verif.Model.HalfEmulated
import Verif.Proofs.HalfArith
import Verif.Props.Half
/-!
# Lemmas about emulated halves
-/
namespace Verif.Proofs.HalfEmulated
open Verif.Spec.IeeeArith Verif.Spec.Float Verif.Spec.SmallFloat Verif.Model.HalfEmulated

theorem value32_of {x : BitVec 32} {e f : ℕ} {s : Bool} (he : x.toNat / 2 ^ 23 % 2 ^ 8 = e) (hf : x.toNat % 2 ^ 23 = f)
    (hs : decide (x.toNat / 2 ^ 31 % 2 = 1) = s) (h : e ≠ 255) :
    Spec.Half.single x = .fin s (if e = 0 then f else (2 ^ 23 + f) * 2 ^ (e - 1)) := by
  rw [Verif.Props.single_def x e f s he hf hs, if_neg h]
  split_ifs <;> rfl

/-- The number of the bits `e * 2^23 + r` is `r * 2^e` units, also if `r` is `2^24`. -/
theorem single_bits (s : Bool) (e r : ℕ) (hr : r ≤ 2 ^ 24) (hn : e ≠ 0 → 2 ^ 23 ≤ r) (hb : e * 2 ^ 23 + r < 0x7f800000) :
    Spec.Half.single ((if s then 0x80000000#32 else 0#32) ||| BitVec.ofNat 32 (e * 2 ^ 23 + r)) = .fin s (r * 2 ^ e) := by
  have hx : ((if s then 0x80000000#32 else 0#32) ||| BitVec.ofNat 32 (e * 2 ^ 23 + r)).toNat =
      (if s then 2 ^ 31 else 0) + (e * 2 ^ 23 + r) := by
    have h1 : (BitVec.ofNat 32 (e * 2 ^ 23 + r)).toNat = e * 2 ^ 23 + r := by
      rw [BitVec.toNat_ofNat]; exact Nat.mod_eq_of_lt (by omega)
    cases s
    · rw [if_neg (by decide), BitVec.zero_or, h1]; simp
    · rw [if_pos rfl, BitVec.toNat_or, h1]
      have := Nat.two_pow_add_eq_or_of_lt (i := 31) (b := e * 2 ^ 23 + r) (by omega) 1
      rw [if_pos rfl]
      rw [show (0x80000000#32).toNat = 2 ^ 31 * 1 by rfl, ← this, mul_one]
  have key (e' f' : ℕ) (hf' : f' < 2 ^ 23) (he' : e' < 255) (h : e * 2 ^ 23 + r = e' * 2 ^ 23 + f') :
      Spec.Half.single ((if s then 0x80000000#32 else 0#32) ||| BitVec.ofNat 32 (e * 2 ^ 23 + r)) =
        .fin s (if e' = 0 then f' else (2 ^ 23 + f') * 2 ^ (e' - 1)) := by
    apply value32_of _ _ _ (by omega)
    · rw [hx, h]; split_ifs <;> omega
    · rw [hx, h]; split_ifs <;> omega
    · rw [hx, h]
      cases s
      · simp; omega
      · simp; omega
  rcases Nat.lt_or_ge r (2 ^ 23) with h1 | h1
  · have e0 : e = 0 := by
      by_contra h; exact absurd (hn h) (by omega)
    rw [key e r h1 (by omega) rfl, if_pos e0, e0, Nat.pow_zero, Nat.mul_one]
  · rcases Nat.lt_or_ge r (2 ^ 24) with h2 | h2
    · rw [key (e + 1) (r - 2 ^ 23) (by omega) (by omega) (by omega), if_neg (by omega)]
      rw [show 2 ^ 23 + (r - 2 ^ 23) = r by omega, Nat.add_sub_cancel]
    · have h3 : r = 2 ^ 24 := by omega
      rw [key (e + 2) 0 (by omega) (by omega) (by omega), if_neg (by omega), h3]
      rw [show e + 2 - 1 = e + 1 by omega, pow_succ]
      congr 1
      ring

theorem single_inf (s : Bool) : Spec.Half.single ((if s then 0x80000000#32 else 0#32) ||| 0x7f800000#32) = .inf s := by
  cases s <;> decide

/-- Rounding in units of the least number. -/
theorem rounded_units (a : ℚ) (ha : 0 ≤ a) :
    ∃ e r : ℕ, e = (Int.log 2 (a * 2 ^ 149)).toNat - 23 ∧ r = (roundEven (a * 2 ^ 149 / 2 ^ e)).toNat ∧ r ≤ 2 ^ 24 ∧ (e ≠ 0 → 2 ^ 23 ≤ r) ∧
      rounded 24 (-126) a = (r * 2 ^ e : ℕ) / 2 ^ 149 := by
  have hu : (0 : ℚ) ≤ a * 2 ^ 149 := by positivity
  obtain ⟨u, hu'⟩ : ∃ u, u = a * 2 ^ 149 := ⟨_, rfl⟩
  have ea : a = u / 2 ^ 149 := by rw [hu']; field_simp
  rw [← hu'] at hu ⊢
  refine ⟨_, _, rfl, rfl, ?_⟩
  obtain ⟨e, he⟩ : ∃ e, e = (Int.log 2 u).toNat - 23 := ⟨_, rfl⟩
  rw [← he]
  have nn : 0 ≤ roundEven (u / 2 ^ e) := Proofs.Float.le_roundEven (by push_cast; positivity)
  have cast : (((roundEven (u / 2 ^ e)).toNat : ℕ) : ℚ) = (roundEven (u / 2 ^ e) : ℚ) := by
    have := Int.toNat_of_nonneg nn
    exact_mod_cast congrArg (Int.cast (R := ℚ)) this
  rcases lt_or_ge u (2 ^ 23) with h | h
  · -- subnormal
    have e0 : e = 0 := by
      rcases hu.eq_or_lt with h0 | h0
      · rw [he, ← h0]; simp
      · have h1 : Int.log 2 u < 23 := (Int.lt_zpow_iff_log_lt (by norm_num) h0).1 (by exact_mod_cast h)
        omega
    subst e0
    simp only [pow_zero, div_one, mul_one] at *
    have h24 : roundEven u ≤ 2 ^ 23 := Proofs.Float.roundEven_le (by push_cast; exact h.le)
    refine ⟨by omega, fun h => absurd rfl h, ?_⟩
    have habs : |a| = a := abs_of_nonneg ha
    have : |a| < 2 ^ (-126 : ℤ) := by
      rw [habs, ea]
      rw [div_lt_iff₀ (by positivity)]
      refine h.trans_le ?_
      rw [zpow_neg]; norm_num
    rw [rounded, if_pos this]
    have e3 : ((-126 : ℤ) - (24 : ℕ) + 1) = -149 := by norm_num
    rw [e3]
    have e4 : a / 2 ^ (-149 : ℤ) = u := by rw [hu', zpow_neg, div_inv_eq_mul]; norm_cast
    rw [e4, zpow_neg, div_eq_mul_inv]
    push_cast
    rw [cast]
    norm_cast
  · have h0 : (0 : ℚ) < u := lt_of_lt_of_le (by positivity) h
    have hl : 23 ≤ Int.log 2 u := (Int.zpow_le_iff_le_log (by norm_num) h0).1 (by exact_mod_cast h)
    have hle : Int.log 2 u = (e : ℤ) + 23 := by omega
    have b1 := Int.zpow_log_le_self (b := 2) (by norm_num) h0
    have b2 := Int.lt_zpow_succ_log_self (b := 2) (by norm_num) u
    rw [hle] at b1 b2
    have c1 : (2 : ℚ) ^ 23 ≤ u / 2 ^ e := by
      rw [le_div_iff₀ (by positivity), ← pow_add, Nat.add_comm]
      exact_mod_cast b1
    have c2 : u / 2 ^ e ≤ (2 : ℚ) ^ 24 := by
      rw [div_le_iff₀ (by positivity), ← pow_add, Nat.add_comm]
      refine le_of_lt ?_
      have : ((e : ℤ) + 23 + 1) = ((e + 24 : ℕ) : ℤ) := by push_cast; ring
      rw [this] at b2
      exact_mod_cast b2
    have d1 : (2 ^ 23 : ℤ) ≤ roundEven (u / 2 ^ e) := Proofs.Float.le_roundEven (by push_cast; exact c1)
    have d2 : roundEven (u / 2 ^ e) ≤ (2 ^ 24 : ℤ) := Proofs.Float.roundEven_le (by push_cast; exact c2)
    refine ⟨by omega, fun _ => by omega, ?_⟩
    have habs : |a| = a := abs_of_nonneg ha
    have : ¬ |a| < 2 ^ (-126 : ℤ) := by
      rw [habs, ea, not_lt, le_div_iff₀ (by positivity)]
      refine le_trans ?_ h
      rw [zpow_neg]; norm_num
    have apos : 0 < a := by rw [ea]; positivity
    rw [rounded, if_neg this, Proofs.Float.rnd_eval 24 a ((e : ℤ) - 126) (by
        rw [ea, le_div_iff₀ (by positivity)]
        refine le_trans (le_of_eq ?_) b1
        rw [← zpow_natCast, ← zpow_add₀ (by norm_num)]; push_cast; congr 1; ring) (by
        rw [ea, div_lt_iff₀ (by positivity)]
        refine lt_of_lt_of_eq b2 ?_
        push_cast
        rw [← zpow_natCast, ← zpow_add₀ (by norm_num)]; push_cast; congr 1; ring)]
    have ul : (2 : ℚ) ^ ((e : ℤ) - 126 - (24 : ℕ) + 1) = 2 ^ e / 2 ^ 149 := by
      rw [show ((e : ℤ) - 126 - (24 : ℕ) + 1) = (e : ℤ) - (149 : ℕ) by push_cast; ring, zpow_sub₀ (by norm_num)]
      norm_cast
    rw [ul]
    have e5 : a / (2 ^ e / 2 ^ 149) = u / 2 ^ e := by rw [ea]; field_simp
    rw [e5]
    push_cast
    rw [cast]
    ring

def Nonneg : Number → Prop
  | .fin _ a => 0 ≤ a
  | _ => True

/-- The bits stand for the rounded number. -/
theorem value_encode (n : Number) (h : Nonneg n) : value32 (encode32 n) = n.round32 := by
  cases n with
  | nan => decide +kernel
  | inf s => rw [encode32, value32, single_inf]; rfl
  | fin s a =>
    obtain ⟨e, r, he, hr, hr24, hn, hv⟩ := rounded_units a h
    have eb : encode32 (.fin s a) = (if s then 0x80000000#32 else 0#32) ||| BitVec.ofNat 32 (min (e * 2 ^ 23 + r) 0x7f800000) := by
      rw [encode32, ← he, ← hr]
    rw [eb, Number.round32, Number.round, hv]
    have big (p : ℕ) : ((2 : ℚ) ^ 24 - 1) * 2 ^ 104 < (p : ℚ) / 2 ^ 149 ↔ (2 ^ 24 - 1) * 2 ^ 253 < p := by
      rw [lt_div_iff₀ (by positivity)]
      have : ((2 : ℚ) ^ 24 - 1) * 2 ^ 104 * 2 ^ 149 = (((2 ^ 24 - 1) * 2 ^ 253 : ℕ) : ℚ) := by norm_num
      rw [this]
      exact Nat.cast_lt
    rcases Nat.lt_or_ge (e * 2 ^ 23 + r) 0x7f800000 with hb | hb
    · rw [Nat.min_eq_left hb.le, value32, single_bits s e r hr24 hn hb]
      rw [if_neg]
      rw [big, Nat.not_lt]
      rcases Nat.lt_or_ge e 253 with h1 | h1
      · calc r * 2 ^ e ≤ 2 ^ 24 * 2 ^ 252 := Nat.mul_le_mul hr24 (Nat.pow_le_pow_right (by omega) (by omega))
          _ ≤ _ := by norm_num
      · have h2 := hn (by omega)
        have : e = 253 := by omega
        subst this
        exact Nat.mul_le_mul_right _ (by omega)
    · rw [Nat.min_eq_right hb, value32]
      have : BitVec.ofNat 32 0x7f800000 = 0x7f800000#32 := rfl
      rw [this, single_inf, if_pos]
      rw [big]
      rcases Nat.lt_or_ge e 254 with h1 | h1
      · have h3 : e = 253 ∧ r = 2 ^ 24 := by omega
        rw [h3.1, h3.2]
        norm_num
      · calc (2 ^ 24 - 1) * 2 ^ 253 < 2 ^ 23 * 2 ^ 254 := by norm_num
          _ ≤ _ := Nat.mul_le_mul (hn (by omega)) (Nat.pow_le_pow_right (by omega) h1)

theorem value_single (v : BitVec 16) : ∃ x, Model.Half.u16ToF32 v = some x ∧ value32 x = value16 v := by
  obtain ⟨x, hx, hv⟩ := Verif.Props.C52_exact v
  refine ⟨x, hx, ?_⟩
  rw [value32, value16, hv]
  cases Spec.Half.half v with
  | nan => rfl
  | inf s => rfl
  | fin s m =>
    simp only [Spec.Half.Value.toSingleUnits, Number.fin.injEq, true_and]
    push_cast
    rw [div_eq_div_iff (by positivity) (by positivity)]
    ring

theorem viaFloat_eq (op : Number → Number → Number) (a b : BitVec 16) :
    viaFloat op a b = some (Model.Half.f32ToU16 (encode32 (op (value16 a) (value16 b)))) := by
  obtain ⟨x, hx, ex⟩ := value_single a
  obtain ⟨y, hy, ey⟩ := value_single b
  simp only [viaFloat, hx, hy, Option.bind_eq_bind, Option.bind_some, ex, ey]

/-- The bits of a number of the format. -/
theorem bits_exist (j : ℕ) : ∀ m : ℕ, m < 2048 → j ≤ 29 → ∃ b : BitVec 16, Spec.Half.half b = .fin false (m * 2 ^ j) := by
  have key (e f : ℕ) (he : e < 31) (hf : f < 1024) :
      Spec.Half.half (BitVec.ofNat 16 (e * 1024 + f)) = .fin false (if e = 0 then f else (1024 + f) * 2 ^ (e - 1)) := by
    have hx : (BitVec.ofNat 16 (e * 1024 + f)).toNat = e * 1024 + f := by
      rw [BitVec.toNat_ofNat]; exact Nat.mod_eq_of_lt (by omega)
    rw [Verif.Props.half_def _ e f false (by rw [hx]; omega) (by rw [hx]; omega) (by rw [hx]; simp; omega), if_neg (by omega)]
    split_ifs <;> rfl
  induction j with
  | zero =>
    intro m hm _
    rcases Nat.lt_or_ge m 1024 with h | h
    · exact ⟨_, by rw [key 0 m (by omega) h]; simp⟩
    · refine ⟨_, (key 1 (m - 1024) (by omega) (by omega)).trans ?_⟩
      rw [if_neg (by omega), show 1024 + (m - 1024) = m by omega, Nat.sub_self]
  | succ j ih =>
    intro m hm hj
    rcases Nat.lt_or_ge m 1024 with h | h
    · obtain ⟨b, hb⟩ := ih (2 * m) (by omega) (by omega)
      exact ⟨b, by rw [hb]; congr 1; ring⟩
    · refine ⟨_, (key (j + 2) (m - 1024) (by omega) (by omega)).trans ?_⟩
      rw [if_neg (by omega), show 1024 + (m - 1024) = m by omega, show j + 2 - 1 = j + 1 by omega]

theorem of_isHalf {h : ℚ} (hh : IsHalf h) (h0 : 0 ≤ h) : ∃ (b : BitVec 16) (k : ℕ), Spec.Half.half b = .fin false k ∧ h = k / 2 ^ 24 := by
  obtain ⟨m, k, hm, hk, hk5, rfl⟩ := hh
  have hm0 : 0 ≤ m := by
    by_contra hc
    have h1 : (m : ℚ) < 0 := by exact_mod_cast not_le.1 hc
    exact absurd h0 (not_le.2 (mul_neg_of_neg_of_pos h1 (by positivity)))
  rw [abs_of_nonneg hm0] at hm
  obtain ⟨j, hj⟩ : ∃ j : ℕ, k = (j : ℤ) - 24 := ⟨(k + 24).toNat, by omega⟩
  obtain ⟨n, rfl⟩ : ∃ n : ℕ, m = n := ⟨m.toNat, by omega⟩
  obtain ⟨b, hb⟩ := bits_exist j n (by omega) (by omega)
  refine ⟨b, _, hb, ?_⟩
  rw [hj, zpow_sub₀ (by norm_num), zpow_natCast, Int.cast_natCast, Nat.cast_mul, Nat.cast_pow, Nat.cast_ofNat, mul_div_assoc]
  rfl

theorem isHalf_of {b : BitVec 16} {s : Bool} {k : ℕ} (h : Spec.Half.half b = .fin s k) : IsHalf ((k : ℚ) / 2 ^ 24) := by
  have hfl : b.toNat % 2 ^ 10 < 2 ^ 10 := Nat.mod_lt _ (by decide)
  have hel : b.toNat / 2 ^ 10 % 2 ^ 5 < 2 ^ 5 := Nat.mod_lt _ (by decide)
  rw [Verif.Props.half_def b _ _ _ rfl rfl rfl] at h
  generalize b.toNat / 2 ^ 10 % 2 ^ 5 = e at *
  generalize b.toNat % 2 ^ 10 = f at *
  by_cases h1 : e = 31
  · rw [if_pos h1] at h; split at h <;> simp at h
  rw [if_neg h1] at h
  by_cases h0 : e = 0
  · rw [if_pos h0] at h
    simp only [Spec.Half.Value.fin.injEq] at h
    refine ⟨f, -24, ?_, le_refl _, by norm_num, ?_⟩
    · rw [abs_of_nonneg (by positivity)]; exact_mod_cast (by omega : f < 2 ^ 11)
    · rw [← h.2, zpow_neg, div_eq_mul_inv]; norm_cast
  · rw [if_neg h0] at h
    simp only [Spec.Half.Value.fin.injEq] at h
    refine ⟨(1024 + f : ℕ), (e : ℤ) - 25, ?_, by omega, by omega, ?_⟩
    · rw [abs_of_nonneg (by positivity)]; exact_mod_cast (by omega : 1024 + f < 2 ^ 11)
    · rw [← h.2]
      rw [show (e : ℤ) - 25 = ((e - 1 : ℕ) : ℤ) - (24 : ℕ) by omega, zpow_sub₀ (by norm_num)]
      push_cast
      norm_cast
      push_cast
      ring

/-- What the bits of a finite result are. -/
theorem single_of (s : Bool) (a : ℚ) (h0 : 0 ≤ a) (hmin : a = 0 ∨ 2 ^ (-126 : ℤ) ≤ a) (hmax : a ≤ 2 ^ (127 : ℤ)) :
    ∃ m : ℕ, Spec.Half.single (encode32 (.fin s a)) = .fin s m ∧ rnd 24 a = m / 2 ^ 149 := by
  have hv := value_encode (.fin s a) h0
  have h1 := Proofs.HalfArith.single_eq a (by rwa [abs_of_nonneg h0]) (by rwa [abs_of_nonneg h0])
  rw [single, result] at h1
  have hnn : 0 ≤ rnd 24 a := Proofs.Float.rnd_nonneg 24 h0
  have hr : rounded 24 (-126) a = rnd 24 a ∧ ¬ ((2 : ℚ) ^ 24 - 1) * 2 ^ 104 < |rounded 24 (-126) a| := by
    split_ifs at h1 with hc
    exact ⟨Result.finite.inj h1, hc⟩
  have hr2 := hr.2
  rw [hr.1, abs_of_nonneg hnn] at hr2
  rw [Number.round32, Number.round, hr.1, if_neg hr2, value32] at hv
  cases hx : Spec.Half.single (encode32 (.fin s a)) with
  | nan => rw [hx] at hv; cases hv
  | inf t => rw [hx] at hv; cases hv
  | fin t m =>
    rw [hx] at hv
    simp only [Number.fin.injEq] at hv
    exact ⟨m, by rw [hv.1], hv.2.symm⟩

theorem rnd_fix {h : ℚ} (hh : IsHalf h) : rnd 24 h = h := by
  obtain ⟨m, k, hm, -, -, rfl⟩ := hh
  exact Proofs.Float.rnd_exact 24 (by norm_num) m k (hm.le.trans (by norm_num))

theorem rnd_pow (k : ℤ) : rnd 24 (2 ^ k) = 2 ^ k := by
  have := Proofs.Float.rnd_exact 24 (by norm_num) 1 k (by norm_num)
  simpa using this

theorem units_le {m : ℕ} {j : ℕ} {a : ℚ} (hw : rnd 24 a = m / 2 ^ 149) (h : 2 ^ ((j : ℤ) - 149) ≤ a) : 2 ^ j ≤ m := by
  have := Proofs.Float.rnd_mono 24 (by norm_num) h
  rw [rnd_pow, hw, le_div_iff₀ (by positivity), ← zpow_natCast, ← zpow_add₀ (by norm_num)] at this
  rw [show ((j : ℤ) - 149 + (149 : ℕ)) = (j : ℤ) by push_cast; ring, zpow_natCast] at this
  exact_mod_cast this

theorem isHalf_65504 : IsHalf 65504 := ⟨2047, 5, by norm_num, by norm_num, by norm_num, by norm_num⟩

theorem le_65504 {h : ℚ} (hh : IsHalf h) : h ≤ 65504 := by
  obtain ⟨m, k, hm, -, hk, rfl⟩ := hh
  have h1 : (m : ℚ) ≤ 2047 := by
    have : m ≤ 2047 := by have := (abs_lt.1 hm).2; omega
    exact_mod_cast this
  have h2 : (2 : ℚ) ^ k ≤ 2 ^ (5 : ℤ) := zpow_le_zpow_right₀ (by norm_num) hk
  have h3 : (0 : ℚ) < 2 ^ k := by positivity
  calc (m : ℚ) * 2 ^ k ≤ 2047 * 2 ^ k := mul_le_mul_of_nonneg_right h1 h3.le
    _ ≤ 2047 * 2 ^ (5 : ℤ) := mul_le_mul_of_nonneg_left h2 (by norm_num)
    _ = 65504 := by norm_num

theorem half_nonneg {b : BitVec 16} {s : Bool} {a : ℚ} (h : value16 b = .fin s a) : 0 ≤ a ∧ IsHalf a := by
  rw [value16] at h
  cases hb : Spec.Half.half b with
  | nan => rw [hb] at h; cases h
  | inf t => rw [hb] at h; cases h
  | fin t m =>
    rw [hb] at h
    simp only [Number.fin.injEq] at h
    rw [← h.2]
    exact ⟨by positivity, isHalf_of hb⟩

/-- Results of the conversion for finite numbers, from the least normal half up. -/
theorem convert_fin (s : Bool) (a : ℚ) (h1 : 1 / 2 ^ 14 ≤ a) (h2 : a ≤ 131071) :
    FaithfulResult (.fin s a) (value16 (Model.Half.f32ToU16 (encode32 (.fin s a)))) := by
  have h0 : (0 : ℚ) ≤ a := le_trans (by positivity) h1
  obtain ⟨m, hx, hw⟩ := single_of s a h0 (Or.inr (le_trans (by norm_num) h1)) (le_trans h2 (by norm_num))
  have hlo : 2 ^ 135 ≤ m := units_le hw (le_trans (by norm_num) h1)
  have half_le {b : BitVec 16} {t : Bool} {k : ℕ} (hk : Spec.Half.half b = .fin t k) (h : (k : ℚ) / 2 ^ 24 ≤ a) : k * 2 ^ 125 ≤ m := by
    have := Proofs.Float.rnd_mono 24 (by norm_num) h
    rw [rnd_fix (isHalf_of hk), hw, div_le_div_iff₀ (by positivity) (by positivity)] at this
    have h3 : ((k * 2 ^ 149 : ℕ) : ℚ) ≤ (m * 2 ^ 24 : ℕ) := by push_cast; exact this
    have h4 : k * 2 ^ 149 ≤ m * 2 ^ 24 := by exact_mod_cast h3
    rw [show (2 : ℕ) ^ 149 = 2 ^ 125 * 2 ^ 24 by norm_num, ← mul_assoc] at h4
    exact Nat.le_of_mul_le_mul_right h4 (by positivity)
  have q_le {n : ℕ} (h : n * 2 ^ 125 ≤ m) : (n : ℚ) / 2 ^ 24 ≤ rnd 24 a := by
    rw [hw, div_le_div_iff₀ (by positivity) (by positivity)]
    have h3 : ((n * 2 ^ 149 : ℕ) : ℚ) ≤ (m * 2 ^ 24 : ℕ) := by
      have : n * 2 ^ 149 ≤ m * 2 ^ 24 := by
        rw [show (2 : ℕ) ^ 149 = 2 ^ 125 * 2 ^ 24 by norm_num, ← mul_assoc]
        exact Nat.mul_le_mul_right _ h
      exact_mod_cast this
    push_cast at h3
    exact h3
  rcases Nat.lt_or_ge m (2 ^ 165) with hm | hm
  · -- truncation
    obtain ⟨n, hn, hle, hmax⟩ := Verif.Props.C52_truncates_partial _ s m hx hlo hm
    have ev : value16 (Model.Half.f32ToU16 (encode32 (.fin s a))) = .fin s (n / 2 ^ 24) := by rw [value16, hn]
    have below (h : ℚ) (hh : IsHalf h) (hha : h ≤ a) : h ≤ (n : ℚ) / 2 ^ 24 := by
      rcases le_or_gt 0 h with hpos | hneg
      · obtain ⟨b, k, hb, rfl⟩ := of_isHalf hh hpos
        have := hmax b _ k hb (half_le hb hha)
        exact div_le_div_of_nonneg_right (by exact_mod_cast this) (by positivity)
      · exact hneg.le.trans (by positivity)
    refine ⟨fun _ => ⟨_, ev, isHalf_of hn, fun h hh => ⟨below h hh, fun hha => ?_⟩⟩, fun hbig => Or.inl ?_, fun hbig => ?_⟩
    · have := Proofs.Float.rnd_mono 24 (by norm_num) hha
      rw [rnd_fix hh] at this
      exact (q_le hle).trans this
    · rw [ev, le_antisymm (le_65504 (isHalf_of hn)) (below _ isHalf_65504 hbig.le)]
    · exfalso
      have : 2 ^ 165 ≤ m := units_le hw (le_trans (by norm_num) hbig)
      omega
  · have hm2 : m < 2 ^ 166 := by
      have := Proofs.Float.rnd_mono 24 (by norm_num) h2
      have e : rnd 24 131071 = 131071 := by
        have := Proofs.Float.rnd_exact 24 (by norm_num) 131071 0 (by norm_num)
        simpa using this
      rw [e, hw, div_le_iff₀ (by positivity)] at this
      have h3 : (m : ℚ) ≤ ((131071 * 2 ^ 149 : ℕ) : ℚ) := by rw [Nat.cast_mul, Nat.cast_pow]; exact this
      have h4 : m ≤ 131071 * 2 ^ 149 := by exact_mod_cast h3
      omega
    have ev : value16 (Model.Half.f32ToU16 (encode32 (.fin s a))) = .inf s := by
      rw [value16, (Verif.Props.C52_special_partial _).2.2.2 s m hx hm hm2]
    refine ⟨fun hsmall => ?_, fun _ => Or.inr ev, fun _ => ev⟩
    exfalso
    have := Proofs.Float.rnd_mono 24 (by norm_num) hsmall
    rw [rnd_fix isHalf_65504, hw, div_le_iff₀ (by positivity)] at this
    have h3 : (m : ℚ) ≤ ((65504 * 2 ^ 149 : ℕ) : ℚ) := by rw [Nat.cast_mul, Nat.cast_pow]; exact this
    have h4 : m ≤ 65504 * 2 ^ 149 := by exact_mod_cast h3
    omega

theorem convert_zero (s : Bool) : value16 (Model.Half.f32ToU16 (encode32 (.fin s 0))) = .fin s 0 := by
  cases s <;> decide +kernel

theorem isHalf_zero : IsHalf 0 := ⟨0, 0, by norm_num, by norm_num, by norm_num, by norm_num⟩

/-- The conversion in general. -/
theorem convert_faithful (n : Number) (hn : Nonneg n) (h : ∀ s a, n = .fin s a → a = 0 ∨ (1 / 2 ^ 14 ≤ a ∧ a ≤ 131071)) :
    FaithfulResult n (value16 (Model.Half.f32ToU16 (encode32 n))) := by
  cases n with
  | nan => exact (by decide +kernel : value16 (Model.Half.f32ToU16 (encode32 .nan)) = .nan)
  | inf s => exact (by cases s <;> decide +kernel : value16 (Model.Half.f32ToU16 (encode32 (.inf s))) = .inf s)
  | fin s a =>
    rcases h s a rfl with rfl | ⟨h1, h2⟩
    · rw [convert_zero]
      refine ⟨fun _ => ⟨0, rfl, isHalf_zero, fun h _ => ⟨id, id⟩⟩, fun h => absurd h (by norm_num), fun h => absurd h (by norm_num)⟩
    · exact convert_fin s a h1 h2

theorem add_nonneg' (x y : Number) : Nonneg (x.add y) := by
  cases x <;> cases y <;> simp only [Number.add] <;> (try trivial) <;> split_ifs <;> simp [Nonneg]

theorem sub_nonneg' (x y : Number) : Nonneg (x.sub y) := add_nonneg' x y.negate

theorem mul_nonneg' {x y : Number} (hx : Nonneg x) (hy : Nonneg y) : Nonneg (x.mul y) := by
  cases x <;> cases y <;> simp only [Number.mul] <;> (try trivial)
  · split_ifs <;> trivial
  · split_ifs <;> trivial
  · exact mul_nonneg hx hy

theorem div_nonneg' {x y : Number} (hx : Nonneg x) (hy : Nonneg y) : Nonneg (x.div y) := by
  cases x <;> cases y <;> simp only [Number.div] <;> (try trivial)
  split_ifs
  · trivial
  · trivial
  · exact div_nonneg hx hy

theorem value_nonneg (b : BitVec 16) : Nonneg (value16 b) := by
  cases h : value16 b with
  | nan => trivial
  | inf s => trivial
  | fin s a => exact (half_nonneg h).1

/-- A sum of halves: a multiple of 2⁻²⁴, at most 131008. -/
theorem sum_range {x y : BitVec 16} {s : Bool} {z : ℚ} (h : (value16 x).add (value16 y) = .fin s z) :
    (∃ k : ℕ, z = k / 2 ^ 24) ∧ z ≤ 131008 := by
  have units {b : BitVec 16} {t : Bool} {a : ℚ} (h : value16 b = .fin t a) : ∃ i : ℤ, signed t a = i / 2 ^ 24 ∧ |signed t a| ≤ 65504 := by
    have h2 := half_nonneg h
    have h3 := le_65504 h2.2
    rw [value16] at h
    cases hb : Spec.Half.half b with
    | nan => rw [hb] at h; cases h
    | inf t => rw [hb] at h; cases h
    | fin t m =>
      rw [hb] at h
      simp only [Number.fin.injEq] at h
      obtain ⟨rfl, rfl⟩ := h
      cases t
      · exact ⟨m, by simp [signed], by simpa [signed, abs_of_nonneg h2.1] using h3⟩
      · exact ⟨-m, by simp [signed]; ring, by simpa [signed, abs_of_nonneg h2.1] using h3⟩
  cases hx : value16 x with
  | nan => rw [hx] at h; simp [Number.add] at h
  | inf t => rw [hx] at h; cases hy : value16 y <;> rw [hy] at h <;> simp only [Number.add] at h <;> (try split_ifs at h) <;> cases h
  | fin t a =>
    cases hy : value16 y with
    | nan => rw [hx, hy] at h; simp [Number.add] at h
    | inf t => rw [hx, hy] at h; simp [Number.add] at h
    | fin u b =>
      rw [hx, hy] at h
      simp only [Number.add] at h
      obtain ⟨i, hi, hi2⟩ := units hx
      obtain ⟨j, hj, hj2⟩ := units hy
      split_ifs at h with h0
      · simp only [Number.fin.injEq] at h
        rw [← h.2]
        exact ⟨⟨0, by simp⟩, by norm_num⟩
      · simp only [Number.fin.injEq] at h
        rw [← h.2]
        refine ⟨⟨(i + j).natAbs, ?_⟩, (abs_add_le _ _).trans (by linarith)⟩
        rw [hi, hj, ← add_div, abs_div]
        congr 1
        rw [Nat.cast_natAbs]; push_cast; rfl

/-- The sign bit is the sign. -/
theorem value_neg (b : BitVec 16) : value16 (Model.Half.neg b) = (value16 b).negate := by
  rw [value16, value16, (Verif.Props.C53_neg b).1]
  cases Spec.Half.half b <;> rfl

theorem isHalf_units (k : ℕ) (h : (k : ℚ) / 2 ^ 24 < 1 / 2 ^ 14) : IsHalf ((k : ℚ) / 2 ^ 24) := by
  rw [div_lt_div_iff₀ (by positivity) (by positivity)] at h
  have h1 : (k : ℚ) < 2 ^ 10 := by linarith
  have h2 : k < 2 ^ 10 := by exact_mod_cast h1
  refine ⟨k, -24, ?_, le_refl _, by norm_num, ?_⟩
  · rw [abs_of_nonneg (by positivity)]; exact_mod_cast (by omega : k < 2 ^ 11)
  · rw [zpow_neg, div_eq_mul_inv]; norm_cast

/-- The exponent field of a normal number in a range. -/
theorem exponent_range {x : BitVec 32} {s : Bool} {m i j : ℕ} (h : Spec.Half.single x = .fin s m) (hi : 2 ^ i ≤ m) (hj : m < 2 ^ j)
    (hi23 : 23 ≤ i) : i < x.toNat / 2 ^ 23 % 2 ^ 8 + 23 ∧ x.toNat / 2 ^ 23 % 2 ^ 8 + 22 < j := by
  have hfl : x.toNat % 2 ^ 23 < 2 ^ 23 := Nat.mod_lt _ (by decide)
  have hi2 : 2 ^ 23 ≤ 2 ^ i := Nat.pow_le_pow_right (by decide) hi23
  rw [Verif.Props.single_def x _ _ _ rfl rfl rfl] at h
  generalize x.toNat / 2 ^ 23 % 2 ^ 8 = e at *
  generalize x.toNat % 2 ^ 23 = f at *
  split_ifs at h with h1 h2 h3
  · simp only [Spec.Half.Value.fin.injEq] at h
    omega
  · simp only [Spec.Half.Value.fin.injEq] at h
    obtain ⟨d, rfl⟩ : ∃ d, e = d + 1 := ⟨e - 1, by omega⟩
    rw [Nat.add_sub_cancel] at h
    have b1 : m < 2 ^ (24 + d) := by
      rw [← h.2, Nat.pow_add]
      exact Nat.mul_lt_mul_of_pos_right (by omega) (Nat.two_pow_pos _)
    have b2 : 2 ^ (23 + d) ≤ m := by
      rw [← h.2, Nat.pow_add]
      exact Nat.mul_le_mul_right _ (by omega)
    have c1 := (Nat.pow_lt_pow_iff_right (a := 2) (by decide)).1 (lt_of_le_of_lt hi b1)
    have c2 := (Nat.pow_lt_pow_iff_right (a := 2) (by decide)).1 (lt_of_le_of_lt b2 hj)
    omega

theorem convert_subnormal (s : Bool) (k : ℕ) (h0 : 0 < (k : ℚ) / 2 ^ 24) (h1 : (k : ℚ) / 2 ^ 24 < 1 / 2 ^ 14) :
    value16 (Model.Half.f32ToU16 (encode32 (.fin s ((k : ℚ) / 2 ^ 24)))) ≠ .fin s ((k : ℚ) / 2 ^ 24) := by
  have hh := isHalf_units k h1
  have hk1 : 1 ≤ k := by
    rcases Nat.eq_zero_or_pos k with h | h
    · rw [h] at h0; norm_num at h0
    · exact h
  have hk2 : k < 2 ^ 10 := by
    rw [div_lt_div_iff₀ (by positivity) (by positivity)] at h1
    have h1 : (k : ℚ) < 2 ^ 10 := by linarith
    exact_mod_cast h1
  have hq : (1 : ℚ) ≤ k := by exact_mod_cast hk1
  obtain ⟨m, hx, hw⟩ := single_of s _ h0.le (Or.inr (by rw [le_div_iff₀ (by positivity)]; exact le_trans (by norm_num) hq))
    (le_trans h1.le (by norm_num))
  have hm : m = k * 2 ^ 125 := by
    rw [rnd_fix hh, div_eq_div_iff (by positivity) (by positivity)] at hw
    have : ((m * 2 ^ 24 : ℕ) : ℚ) = (k * 2 ^ 149 : ℕ) := by push_cast; exact hw.symm
    have h2 : m * 2 ^ 24 = k * 2 ^ 149 := by exact_mod_cast this
    rw [show (2 : ℕ) ^ 149 = 2 ^ 125 * 2 ^ 24 by norm_num, ← mul_assoc] at h2
    exact Nat.eq_of_mul_eq_mul_right (by positivity) h2
  have hlo : 2 ^ 125 ≤ m := by rw [hm]; exact Nat.le_mul_of_pos_left _ hk1
  have hhi : m < 2 ^ 135 := by
    rw [hm, show (2 : ℕ) ^ 135 = 2 ^ 10 * 2 ^ 125 by norm_num]
    exact Nat.mul_lt_mul_of_pos_right hk2 (by positivity)
  obtain ⟨c1, c2⟩ := Verif.Props.C52_small_violated _ s m hx (le_trans (by norm_num) hlo) hhi
  intro hc
  rw [value16] at hc
  cases hb : Spec.Half.half (Model.Half.f32ToU16 (encode32 (.fin s ((k : ℚ) / 2 ^ 24)))) with
  | nan => rw [hb] at hc; cases hc
  | inf t => rw [hb] at hc; cases hc
  | fin t n =>
    rw [hb] at hc
    simp only [Number.fin.injEq] at hc
    have hnk : n = k := by
      have := hc.2
      rw [div_left_inj' (by positivity)] at this
      exact_mod_cast this
    subst hnk
    rcases Nat.lt_or_ge m (2 ^ 134) with h4 | h4
    · have hr := exponent_range hx hlo h4 (by omega)
      have := c2 h4 (by omega) t n hb
      omega
    · obtain ⟨n', hn', hle⟩ := c1 h4
      rw [hb] at hn'
      simp only [Spec.Half.Value.fin.injEq] at hn'
      obtain ⟨-, rfl⟩ := hn'
      omega

theorem product_range {x y : BitVec 16} {s : Bool} {z : ℚ} (h : (value16 x).mul (value16 y) = .fin s z) : z ≤ 2 ^ 32 := by
  cases hx : value16 x with
  | nan => rw [hx] at h; simp [Number.mul] at h
  | inf t => rw [hx] at h; cases hy : value16 y <;> rw [hy] at h <;> simp only [Number.mul] at h <;> (try split_ifs at h) <;> cases h
  | fin t a =>
    cases hy : value16 y with
    | nan => rw [hx, hy] at h; simp [Number.mul] at h
    | inf t => rw [hx, hy] at h; simp only [Number.mul] at h; split_ifs at h
    | fin u b =>
      rw [hx, hy] at h
      simp only [Number.mul, Number.fin.injEq] at h
      have h1 := half_nonneg hx
      have h2 := half_nonneg hy
      rw [← h.2]
      calc a * b ≤ 65504 * 65504 := mul_le_mul (le_65504 h1.2) (le_65504 h2.2) h2.1 (by norm_num)
        _ ≤ 2 ^ 32 := by norm_num

theorem round16_large (s : Bool) (z : ℚ) (h : 2 ^ 17 ≤ z) : (Number.fin s z).round16 = .inf s := by
  have h0 : 0 ≤ z := le_trans (by positivity) h
  rw [Number.round16, Number.round, if_pos]
  rw [rounded, if_neg]
  · have h1 := Proofs.Float.rnd_mono 11 (by norm_num) h
    have h2 : rnd 11 (2 ^ 17) = 2 ^ 17 := by
      have := Proofs.Float.rnd_exact 11 (by norm_num) 1 17 (by norm_num)
      norm_num at this ⊢
      exact this
    rw [h2] at h1
    exact lt_of_lt_of_le (by norm_num) h1
  · rw [abs_of_nonneg h0, not_lt]
    exact le_trans (by norm_num) h

theorem convert_large (s : Bool) (z : ℚ) (h1 : 2 ^ 17 ≤ z) (h2 : z ≤ 2 ^ 32) :
    ∃ q, value16 (Model.Half.f32ToU16 (encode32 (.fin s z))) = .fin true q := by
  have h0 : 0 ≤ z := le_trans (by positivity) h1
  obtain ⟨m, hx, hw⟩ := single_of s z h0 (Or.inr (le_trans (by norm_num) h1)) (le_trans h2 (by norm_num))
  have hlo : 2 ^ 166 ≤ m := units_le hw (le_trans (by norm_num) h1)
  have hhi : m < 2 ^ 182 := by
    have := Proofs.Float.rnd_mono 24 (by norm_num) h2
    have e : rnd 24 (2 ^ 32) = 2 ^ 32 := by exact_mod_cast rnd_pow 32
    rw [e, hw, div_le_iff₀ (by positivity), ← pow_add] at this
    have h4 : m ≤ 2 ^ (32 + 149) := by exact_mod_cast this
    exact lt_of_le_of_lt h4 (by norm_num)
  have hr := exponent_range hx hlo hhi (by omega)
  obtain ⟨⟨t, n, hn, ht⟩, -⟩ := Verif.Props.C52_large_violated _ s m hx hlo (by omega)
  have := ht (by omega) (by omega)
  subst this
  exact ⟨_, by rw [value16, hn]⟩

/-! ## Native halves -/

theorem rounded_nonneg (p : ℕ) (e : ℤ) {z : ℚ} (h : 0 ≤ z) : 0 ≤ rounded p e z := by
  rw [rounded]
  split_ifs
  · refine mul_nonneg ?_ (by positivity)
    have : (0 : ℤ) ≤ roundEven (z / 2 ^ (e - p + 1)) := Proofs.Float.le_roundEven (by push_cast; positivity)
    exact_mod_cast this
  · exact Proofs.Float.rnd_nonneg p h

theorem round_both (s : Bool) (z : ℚ) (h0 : 0 ≤ z) (h : Model.HalfArith.viaSingle z = half z) :
    (Number.fin s z).round32.round16 = (Number.fin s z).round16 := by
  have r0 := rounded_nonneg 24 (-126) h0
  have r1 := rounded_nonneg 11 (-14) h0
  have r2 := rounded_nonneg 11 (-14) r0
  rw [Model.HalfArith.viaSingle, single, half, result, result] at h
  rw [abs_of_nonneg r0, abs_of_nonneg r1] at h
  rw [Number.round32, Number.round16, Number.round, Number.round]
  by_cases g : ((2 : ℚ) ^ 24 - 1) * 2 ^ 104 < rounded 24 (-126) z
  · rw [if_pos g] at h ⊢
    simp only at h
    split_ifs at h with g2
    rw [if_pos g2]
    rfl
  · rw [if_neg g] at h ⊢
    simp only [half, result] at h
    rw [abs_of_nonneg r2] at h
    rw [Number.round]
    split_ifs at h with g1 g2 g2
    · rw [if_pos g1, if_pos g2]
    · rw [if_neg g1, if_neg g2, Result.finite.inj h]

theorem native_add (a b : BitVec 16) : Model.HalfArith.ieee .add a b = ((value16 a).add (value16 b)).round16 := by
  rw [Model.HalfArith.ieee]
  cases hx : value16 a with
  | nan => rfl
  | inf s => cases hy : value16 b <;> simp only [Number.add] <;> (try split_ifs) <;> rfl
  | fin s p =>
    cases hy : value16 b with
    | nan => rfl
    | inf t => rfl
    | fin t q =>
      have hp := half_nonneg hx
      have hq := half_nonneg hy
      have sg (u : Bool) {v : ℚ} (h : IsHalf v) : IsHalf (signed u v) := by
        cases u
        · exact h
        · exact Proofs.HalfArith.isHalf_neg h
      simp only [Number.add]
      split_ifs with h0
      · apply round_both _ 0 (le_refl _)
        have := Proofs.HalfArith.add_eq 0 0 isHalf_zero isHalf_zero
        simpa using this
      · apply round_both _ _ (abs_nonneg _)
        rcases abs_choice (signed s p + signed t q) with h | h
        · rw [h]; exact Proofs.HalfArith.add_eq _ _ (sg s hp.2) (sg t hq.2)
        · rw [h, neg_add]
          exact Proofs.HalfArith.add_eq _ _ (Proofs.HalfArith.isHalf_neg (sg s hp.2)) (Proofs.HalfArith.isHalf_neg (sg t hq.2))

theorem native_mul (a b : BitVec 16) : Model.HalfArith.ieee .mul a b = ((value16 a).mul (value16 b)).round16 := by
  rw [Model.HalfArith.ieee]
  cases hx : value16 a with
  | nan => rfl
  | inf s => cases hy : value16 b <;> simp only [Number.mul] <;> (try split_ifs) <;> rfl
  | fin s p =>
    cases hy : value16 b with
    | nan => rfl
    | inf t => simp only [Number.mul]; split_ifs <;> rfl
    | fin t q =>
      have hp := half_nonneg hx
      have hq := half_nonneg hy
      exact round_both _ _ (mul_nonneg hp.1 hq.1) (Proofs.HalfArith.mul_eq _ _ hp.2 hq.2)

theorem native_div (a b : BitVec 16) : Model.HalfArith.ieee .div a b = ((value16 a).div (value16 b)).round16 := by
  rw [Model.HalfArith.ieee]
  cases hx : value16 a with
  | nan => rfl
  | inf s => cases hy : value16 b <;> rfl
  | fin s p =>
    cases hy : value16 b with
    | nan => rfl
    | inf t =>
      apply round_both _ 0 (le_refl _)
      have := Proofs.HalfArith.add_eq 0 0 isHalf_zero isHalf_zero
      simpa using this
    | fin t q =>
      have hp := half_nonneg hx
      have hq := half_nonneg hy
      simp only [Number.div]
      split_ifs with h0 h1
      · rfl
      · rfl
      · exact round_both _ _ (div_nonneg hp.1 hq.1) (Proofs.HalfArith.div_eq _ _ hp.2 hq.2 h0)

end Verif.Proofs.HalfEmulated
