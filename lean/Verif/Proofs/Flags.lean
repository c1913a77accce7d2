import Verif.Spec.Flags
import Verif.Model.Flags
import Verif.Proofs.IntVector
import Mathlib.Tactic.Ring
import Mathlib.Tactic.Linarith
import Mathlib.Tactic.Positivity

/-! # Lemmas on the operators of flag enumerations -/

namespace Verif.Proofs.Flags

open Verif.Spec.CInt Verif.Spec.Flags Verif.Spec.Parts Verif.Model.CInt Verif.Model.Flags

theorem bit_testBit (v : ℤ) (i : ℕ) : Bit v i ↔ Int.testBit v i = true := by
  unfold Bit
  cases v with
  | ofNat n =>
    simp only [Int.testBit, Int.ofNat_eq_natCast, Nat.testBit_eq_decide_div_mod_eq, decide_eq_true_eq]
    have : ((n : ℤ) / 2 ^ i % 2) = ((n / 2 ^ i % 2 : ℕ) : ℤ) := by push_cast; rfl
    rw [this]; omega
  | negSucc n =>
    have h : Int.negSucc n / 2 ^ i = -((n / 2 ^ i : ℕ) : ℤ) - 1 := by
      rw [Int.negSucc_ediv n (by positivity)]
      have e : Int.ediv (n : ℤ) (2 ^ i) = ((n / 2 ^ i : ℕ) : ℤ) := by
        show (n : ℤ) / 2 ^ i = _
        push_cast; rfl
      rw [e]; ring
    rw [h]
    simp only [Int.testBit, Nat.testBit_eq_decide_div_mod_eq, Bool.not_eq_true', decide_eq_false_iff_not]
    generalize n / 2 ^ i = q
    omega

theorem bit_shift (v : ℤ) (k i : ℕ) : Bit (v / 2 ^ k) i ↔ Bit v (k + i) := by
  unfold Bit
  rw [Int.ediv_ediv_of_nonneg (by positivity), ← pow_add]

theorem bit_large (v : ℤ) (n i : ℕ) (h0 : -2 ^ n ≤ v) (h1 : v < 2 ^ n) (h : n ≤ i) : Bit v i ↔ v < 0 := by
  unfold Bit
  have hp : (2 : ℤ) ^ n ≤ 2 ^ i := pow_le_pow_right₀ (by norm_num) h
  rcases lt_or_ge v 0 with hv | hv
  · have : v / 2 ^ i = -1 := by
      rw [Int.ediv_eq_iff_of_pos (by positivity)]
      constructor <;> linarith
    rw [this]; simp [hv]
  · rw [Int.ediv_eq_zero_of_lt hv (by linarith)]
    simp [hv]

theorem exists_bound (v : ℤ) : ∃ n : ℕ, -2 ^ n ≤ v ∧ v < 2 ^ n := by
  refine ⟨v.natAbs, ?_⟩
  have : (v.natAbs : ℤ) < 2 ^ v.natAbs := by exact_mod_cast Nat.lt_two_pow_self
  omega

theorem bit_double (v : ℤ) (i : ℕ) : Bit v (i + 1) ↔ Bit (v / 2) i := by
  have := bit_shift v 1 i
  rw [pow_one, Nat.add_comm] at this
  exact this.symm

/-- A number is determined by its bits below `n` and its sign, if it is below `2^n`. -/
theorem eq_of_bits_aux (n : ℕ) : ∀ v w : ℤ, -2 ^ n ≤ v → v < 2 ^ n → -2 ^ n ≤ w → w < 2 ^ n → (v < 0 ↔ w < 0) →
    (∀ i < n, (Bit v i ↔ Bit w i)) → v = w := by
  induction n with
  | zero => intro v w; simp only [pow_zero]; omega
  | succ n ih =>
    intro v w v0 v1 w0 w1 hs hb
    have hh : v / 2 = w / 2 := by
      rw [pow_succ] at v0 v1 w0 w1
      apply ih
      · omega
      · omega
      · omega
      · omega
      · omega
      · intro i hi
        rw [← bit_double, ← bit_double]
        exact hb _ (by omega)
    have h0 := hb 0 (by omega)
    unfold Bit at h0
    simp only [pow_zero, Int.ediv_one] at h0
    omega

theorem eq_of_bits (v w : ℤ) (h : ∀ i, Bit v i ↔ Bit w i) : v = w := by
  obtain ⟨n, h0, h1⟩ := exists_bound v
  obtain ⟨m, g0, g1⟩ := exists_bound w
  have hn : (2 : ℤ) ^ n ≤ 2 ^ max n m := pow_le_pow_right₀ (by norm_num) (le_max_left ..)
  have hm : (2 : ℤ) ^ m ≤ 2 ^ max n m := pow_le_pow_right₀ (by norm_num) (le_max_right ..)
  apply eq_of_bits_aux (max n m) v w (by linarith) (by linarith) (by linarith) (by linarith)
  · rw [← bit_large v n (max n m) h0 h1 (le_max_left ..), ← bit_large w m (max n m) g0 g1 (le_max_right ..)]
    exact h _
  · exact fun i _ => h i

/-- The mathematical operation of an operator, on all bits of two's complement. -/
def pure : Op → ℤ → ℤ → ℤ
  | .and => Int.land
  | .or => Int.lor
  | .xor => Int.xor

/-- What it does to one bit. -/
def onBit : Op → Prop → Prop → Prop
  | .and => fun p q => p ∧ q
  | .or => fun p q => p ∨ q
  | .xor => fun p q => ¬(p ↔ q)

theorem bit_pure (o : Op) (a b : ℤ) (i : ℕ) : Bit (pure o a b) i ↔ onBit o (Bit a i) (Bit b i) := by
  cases o <;> simp only [pure, onBit, bit_testBit, Int.testBit_land, Int.testBit_lor, Int.testBit_lxor]
  · simp
  · simp
  · cases Int.testBit a i <;> cases Int.testBit b i <;> simp

theorem bit_lnot (a : ℤ) (i : ℕ) : Bit (Int.lnot a) i ↔ ¬Bit a i := by
  simp [bit_testBit, Int.testBit_lnot]

theorem lnot_eq (a : ℤ) : Int.lnot a = -a - 1 := by
  cases a with
  | ofNat n => show Int.negSucc n = _; rw [Int.negSucc_eq, Int.ofNat_eq_natCast]; ring
  | negSucc n => show (n : ℤ) = _; rw [Int.negSucc_eq]; ring

theorem pure_div (o : Op) (a b : ℤ) (k : ℕ) : pure o a b / 2 ^ k = pure o (a / 2 ^ k) (b / 2 ^ k) := by
  apply eq_of_bits
  intro i
  rw [bit_shift, bit_pure, bit_pure, bit_shift, bit_shift]

/-- A value of a type, by its upper bits. -/
theorem has_iff (t : Ty) (x : ℤ) :
    t.Has x ↔ if t.signed then (x / 2 ^ (t.bits - 1) = 0 ∨ x / 2 ^ (t.bits - 1) = -1) else x / 2 ^ t.bits = 0 := by
  unfold Ty.Has Ty.lo Ty.hi
  have hp : (0 : ℤ) < 2 ^ (t.bits - 1) := by positivity
  have hq : (0 : ℤ) < 2 ^ t.bits := by positivity
  cases t.signed
  · simp only [Bool.false_eq_true, if_false]
    rw [Int.ediv_eq_iff_of_pos hq]
    omega
  · simp only [if_true]
    rw [Int.ediv_eq_iff_of_pos hp, Int.ediv_eq_iff_of_pos hp]
    omega

theorem pure_has {t : Ty} (o : Op) {a b : ℤ} (ha : t.Has a) (hb : t.Has b) : t.Has (pure o a b) := by
  rw [has_iff] at ha hb ⊢
  cases hs : t.signed <;> simp only [hs, Bool.false_eq_true, if_false, if_true] at ha hb ⊢
  · rw [pure_div, ha, hb]; cases o <;> rfl
  · rw [pure_div]
    rcases ha with ha | ha <;> rcases hb with hb | hb <;> rw [ha, hb] <;> cases o <;> decide +kernel

theorem lnot_has {t : Ty} (h : t.signed = true) {a : ℤ} (ha : t.Has a) : t.Has (Int.lnot a) := by
  rw [lnot_eq]
  unfold Ty.Has Ty.lo Ty.hi at *
  simp only [h, if_true] at *
  omega

/-- Reduction keeps the bits that are kept. -/
theorem bit_reduced {t : Ty} {x r : ℤ} (h : Reduced t x r) {i : ℕ} (hi : i < t.bits) : Bit r i ↔ Bit x i := by
  obtain ⟨-, k, hk⟩ := h
  unfold Bit
  obtain ⟨j, hj⟩ : ∃ j, (2 : ℤ) ^ t.bits = 2 ^ i * (2 * j) := by
    refine ⟨2 ^ (t.bits - i - 1), ?_⟩
    rw [show (2 : ℤ) * 2 ^ (t.bits - i - 1) = 2 ^ (t.bits - i) by rw [← pow_succ']; congr 1; omega, ← pow_add]
    congr 1; omega
  have hx : x = r + 2 ^ i * (2 * j * k) := by rw [← mul_assoc, ← hj]; linarith
  rw [hx, Int.add_mul_ediv_left _ _ (by positivity), mul_assoc]
  omega

theorem valid_bits {e : EnumTy} (he : Valid e) : 0 < e.values.bits := by
  cases e with
  | fixed t => exact he
  | boolean => exact Nat.one_pos
  | unfixed t h => exact he.1

theorem promoted_bits {e : EnumTy} (he : Valid e) : 0 < e.promoted.bits := by
  cases e with
  | fixed t => exact IntVector.promote_bits he
  | boolean => exact (by decide : 0 < 32)
  | unfixed t h => exact IntVector.promote_bits he.2.1

theorem promoted_has {e : EnumTy} (he : Valid e) {v : ℤ} (hv : e.values.Has v) : e.promoted.Has v := by
  cases e with
  | fixed t => exact IntVector.promote_has he hv
  | boolean =>
    simp only [EnumTy.values, EnumTy.promoted, Ty.Has, Ty.lo, Ty.hi] at *
    simp at *
    omega
  | unfixed t h => exact IntVector.promote_has he.2.1 (he.2.2 v hv)

theorem cast_has {e : EnumTy} (he : Valid e) {v : ℤ} (hv : e.values.Has v) : e.cast v = some v := by
  cases e with
  | fixed t => exact congrArg some (CInt.conv_has he hv)
  | boolean =>
    simp only [EnumTy.values, EnumTy.cast, Ty.Has, Ty.lo, Ty.hi] at *
    simp at *
    split <;> omega
  | unfixed t h => exact if_pos hv

theorem binary_eq {e : EnumTy} (he : Valid e) (o : Op) {a b : ℤ} (ha : e.values.Has a) (hb : e.values.Has b) :
    binary e o a b = some (pure o a b) ∧ e.values.Has (pure o a b) := by
  have h := pure_has o ha hb
  refine ⟨?_, h⟩
  have hc : o.eval e.promoted a b = pure o a b := by
    cases o <;> exact CInt.conv_has (promoted_bits he) (promoted_has he h)
  rw [binary, hc, cast_has he h]

theorem complement_fixed {t : Ty} (h : 0 < t.bits) (a : ℤ) :
    ∃ r, complement (.fixed t) a = some r ∧ t.Has r ∧ ∀ i < t.bits, (Bit r i ↔ ¬Bit a i) := by
  have hr : Reduced _ _ (conv (promote t) (Int.lnot a)) := IntVector.conv_reduced (IntVector.promote_bits h) (Int.lnot a)
  have hr3 := IntVector.reduced_trans (IntVector.promote_le t) hr (IntVector.conv_reduced h _)
  refine ⟨conv t (conv (promote t) (Int.lnot a)), rfl, hr3.1, fun i hi => ?_⟩
  rw [bit_reduced hr3 hi, bit_lnot]

theorem complement_signed {t h : Ty} (he : Valid (.unfixed t h)) (hs : h.signed = true) {a : ℤ} (ha : h.Has a) :
    complement (.unfixed t h) a = some (Int.lnot a) ∧ h.Has (Int.lnot a) := by
  have h1 := lnot_has hs ha
  have h3 : conv (promote t) (Int.lnot a) = _ := CInt.conv_has (promoted_bits he) (promoted_has he h1)
  refine ⟨?_, h1⟩
  show (if h.Has (conv (promote t) (Int.lnot a)) then _ else _) = _
  rw [h3, if_pos h1]
  exact congrArg some h3

theorem complement_unsigned {t h : Ty} (he : Valid (.unfixed t h)) (hs : h.signed = false) {a : ℤ} (ha : h.Has a) :
    (promote t = h → ∃ r, complement (.unfixed t h) a = some r ∧ h.Has r ∧ ∀ i < h.bits, (Bit r i ↔ ¬Bit a i)) ∧
    (promote t ≠ h → complement (.unfixed t h) a = none) := by
  have hr : Reduced _ _ (conv (promote t) (Int.lnot a)) := IntVector.conv_reduced (IntVector.promote_bits he.2.1) (Int.lnot a)
  constructor
  · intro e
    rw [e] at hr
    refine ⟨conv h (Int.lnot a), ?_, hr.1, fun i hi => ?_⟩
    · show (if h.Has (conv (promote t) (Int.lnot a)) then _ else _) = _
      rw [e, if_pos hr.1]
      exact congrArg (fun p => some (conv p (Int.lnot a))) e
    · rw [bit_reduced hr hi, bit_lnot]
  · intro ne
    have hv : (promote t).Has a := promoted_has he ha
    have key : ¬h.Has (conv (promote t) (Int.lnot a)) := by
      have hmax : (promote t).Has h.hi := by
        have hp := CInt.two_pow_pos h.bits
        refine promoted_has he ⟨?_, le_refl _⟩
        show h.lo ≤ h.hi
        simp only [Ty.lo, Ty.hi, hs, Bool.false_eq_true, if_false]
        omega
      have h0 := IntVector.promote_bits he.2.1
      rw [lnot_eq] at hr ⊢
      generalize promote t = p at *
      obtain ⟨pb, ps⟩ := p
      obtain ⟨hb, hs'⟩ := h
      simp only at hs; subst hs
      unfold Ty.Has Ty.lo Ty.hi at *
      cases ps
      · simp only [Bool.false_eq_true, if_false] at *
        have hle : hb < pb := by
          rcases lt_trichotomy hb pb with h | h | h
          · exact h
          · exact absurd (by rw [h]) ne
          · have := pow_lt_pow_right₀ (show (1 : ℤ) < 2 by norm_num) h
            omega
        have h2 : (2 : ℤ) * 2 ^ hb ≤ 2 ^ pb := by rw [← pow_succ']; exact pow_le_pow_right₀ (by norm_num) hle
        have : conv ⟨pb, false⟩ (-a - 1) = 2 ^ pb - 1 - a := by
          simp only [conv, Bool.false_eq_true, false_and, if_false]
          rw [show -a - 1 = (2 ^ pb - 1 - a) + 2 ^ pb * (-1) by ring, Int.add_mul_emod_self_left]
          exact Int.emod_eq_of_lt (by omega) (by omega)
        rw [this]
        omega
      · simp only [Bool.false_eq_true, if_false, if_true] at *
        have hpb : (⟨pb, true⟩ : Ty).Has (-a - 1) := by unfold Ty.Has Ty.lo Ty.hi; simp only [if_true]; omega
        rw [CInt.conv_has h0 hpb]
        omega
    exact if_neg key

end Verif.Proofs.Flags
