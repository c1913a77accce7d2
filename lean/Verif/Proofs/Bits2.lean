import Verif.Model.Bits
import Verif.Spec.Bits

/-! Lemmas for popcount, has_single_bit, bit_pack, apply_alignment. -/
namespace Verif.Proofs
open Verif.Spec Verif.Model

/-! ### popcount -/

/-- the byte `m` repeated `n` times -/
def rep : Nat → Nat → Nat
  | 0, _ => 0
  | n + 1, m => 256 * rep n m + m

def step1 (n x : Nat) : Nat := x - (x / 2 &&& rep n 0x55)
def step2 (n x : Nat) : Nat := (x &&& rep n 0x33) + (x / 4 &&& rep n 0x33)
def step3 (n x : Nat) : Nat := (x + x / 16) &&& rep n 0x0f

/-- the number of ones among the `w` low bits -/
def onesN (w x : Nat) : Nat := (List.range w).countP fun i => x.testBit i

/-- per byte number of ones, as base 256 digits -/
def pd : Nat → Nat → Nat
  | 0, _ => 0
  | n + 1, x => 256 * pd n (x / 256) + onesN 8 (x % 256)

theorem rep_succ (n m : Nat) : rep (n + 1) m = 256 * rep n m + m := rfl

theorem land_split (a b c d : Nat) (hb : b < 256) (hd : d < 256) :
    (256 * a + b) &&& (256 * c + d) = 256 * (a &&& c) + (b &&& d) := by
  have e1 := Nat.two_pow_add_eq_or_of_lt (i := 8) hb a
  have e2 := Nat.two_pow_add_eq_or_of_lt (i := 8) hd c
  have hbd : (b &&& d) < 2 ^ 8 := Nat.lt_of_le_of_lt Nat.and_le_left hb
  have e3 := Nat.two_pow_add_eq_or_of_lt hbd (a &&& c)
  rw [show (256 : Nat) = 2 ^ 8 from rfl]
  apply Nat.eq_of_testBit_eq
  intro i
  rw [Nat.testBit_and, Nat.testBit_two_pow_mul_add _ hb, Nat.testBit_two_pow_mul_add _ hd,
    Nat.testBit_two_pow_mul_add _ hbd]
  split <;> simp [Nat.testBit_and]

theorem byte_steps : ∀ l < 256,
    (∀ b < 2, (128 * b + l / 2) &&& 0x55 = (l / 2 &&& 0x55)) ∧ (l / 2 &&& 0x55) ≤ l ∧
    (∀ b < 4, (64 * b + l / 4) &&& 0x33 = (l / 4 &&& 0x33)) ∧ (l &&& 0x33) + (l / 4 &&& 0x33) < 256 := by
  decide +kernel

theorem byte_final : ∀ l < 256,
    (let s := l - (l / 2 &&& 0x55); let y := (s &&& 0x33) + (s / 4 &&& 0x33)
     s < 256 ∧ y % 16 ≤ 4 ∧ y ≤ 0x44 ∧ (y + y / 16) &&& 0x0f = onesN 8 l ∧
      ∀ b ≤ 4, (y + (16 * b + y / 16)) < 256 ∧ (y + (16 * b + y / 16)) &&& 0x0f = (y + y / 16) &&& 0x0f) := by
  decide +kernel

theorem step1_split (n h l : Nat) (hl : l < 256) :
    step1 (n + 1) (256 * h + l) = 256 * step1 n h + (l - (l / 2 &&& 0x55)) := by
  obtain ⟨h1, h2, _⟩ := byte_steps l hl
  unfold step1
  rw [rep_succ]
  rw [show (256 * h + l) / 2 = 256 * (h / 2) + (128 * (h % 2) + l / 2) by omega,
    land_split _ _ _ _ (by omega) (by decide), h1 _ (Nat.mod_lt _ (by decide))]
  have : (h / 2 &&& rep n 85) ≤ h := Nat.le_trans Nat.and_le_left (Nat.div_le_self _ _)
  omega

theorem step2_split (n h l : Nat) (hl : l < 256) :
    step2 (n + 1) (256 * h + l) = 256 * step2 n h + ((l &&& 0x33) + (l / 4 &&& 0x33)) := by
  obtain ⟨_, _, h1, _⟩ := byte_steps l hl
  unfold step2
  rw [rep_succ]
  rw [show (256 * h + l) / 4 = 256 * (h / 4) + (64 * (h % 4) + l / 4) by omega,
    land_split _ _ _ _ hl (by decide), land_split _ _ _ _ (by omega) (by decide), h1 _ (Nat.mod_lt _ (by decide))]
  omega

theorem steps (n : Nat) : ∀ x, x < 256 ^ n →
    step1 n x ≤ x ∧ step2 n (step1 n x) % 16 ≤ 4 ∧ step2 n (step1 n x) ≤ rep n 0x44 ∧
    step3 n (step2 n (step1 n x)) = pd n x := by
  induction n with
  | zero => intro x hx; obtain rfl : x = 0 := by simp at hx; exact hx
            decide
  | succ n ih =>
    intro x hx
    have hl : x % 256 < 256 := Nat.mod_lt _ (by decide)
    have hx' : x = 256 * (x / 256) + x % 256 := by omega
    obtain ⟨i1, i2, i3, i4⟩ := ih (x / 256) (by rw [Nat.pow_succ] at hx; omega)
    obtain ⟨b1, b2, b3, b4, b5⟩ := byte_final _ hl
    refine ⟨Nat.sub_le _ _, ?_⟩
    rw [show pd (n + 1) x = 256 * pd n (x / 256) + onesN 8 (x % 256) from rfl]
    generalize hH : x / 256 = h at *
    generalize hL : x % 256 = l at *
    rw [hx', step1_split n h l hl, step2_split n _ _ b1]
    generalize step2 n (step1 n h) = Y at *
    generalize (l - (l / 2 &&& 85) &&& 51) + ((l - (l / 2 &&& 85)) / 4 &&& 51) = y at *
    refine ⟨by omega, ?_, ?_⟩
    · simp only [rep]; omega
    · rw [← i4, ← b4]
      unfold step3
      rw [rep_succ]
      obtain ⟨c1, c2⟩ := b5 (Y % 16) i2
      rw [show 256 * Y + y + (256 * Y + y) / 16 = 256 * (Y + Y / 16) + (y + (16 * (Y % 16) + y / 16)) by omega,
        land_split _ _ _ _ c1 (by decide), c2]

theorem onesN_split (w h l : Nat) (hl : l < 256) : onesN (w + 8) (256 * h + l) = onesN w h + onesN 8 l := by
  unfold onesN
  rw [Nat.add_comm w 8, List.range_add, List.countP_append, List.countP_map, Nat.add_comm]
  congr 1
  · apply List.countP_congr
    intro i _
    simp only [Function.comp]
    rw [show 256 * h + l = 2 ^ 8 * h + l from rfl, Nat.testBit_two_pow_mul_add _ hl, if_neg (by omega),
      Nat.add_sub_cancel_left]
  · apply List.countP_congr
    intro i hi
    rw [List.mem_range] at hi
    rw [show 256 * h + l = 2 ^ 8 * h + l from rfl, Nat.testBit_two_pow_mul_add _ hl, if_pos hi]

theorem onesN_le (w x : Nat) : onesN w x ≤ w := by
  unfold onesN
  exact Nat.le_trans List.countP_le_length (by simp)

theorem rep_one (n : Nat) : 255 * rep n 1 + 1 = 256 ^ n := by
  induction n with
  | zero => rfl
  | succ n ih => rw [rep, Nat.pow_succ, ← ih]; omega

theorem rep_mul (n m : Nat) : rep n m = m * rep n 1 := by
  induction n with
  | zero => rfl
  | succ n ih => simp only [rep]; rw [ih, Nat.mul_add, Nat.mul_left_comm]; omega

/-- the multiplication adds the digits up in the top byte -/
theorem mul_digits (n : Nat) : ∀ x, x < 256 ^ (n + 1) → 8 * (n + 1) < 256 →
    ∃ r, (pd (n + 1) x * rep (n + 1) 1) % 256 ^ (n + 1) = onesN (8 * (n + 1)) x * 256 ^ n + r ∧
      r ≤ onesN (8 * (n + 1)) x * rep n 1 := by
  induction n with
  | zero =>
    intro x hx _
    refine ⟨0, ?_, by omega⟩
    have hx' : x < 256 := by simpa using hx
    have hb := onesN_le 8 x
    have e : pd (0 + 1) x = onesN 8 x := by simp [pd, Nat.mod_eq_of_lt hx']
    rw [e, show rep (0 + 1) 1 = 1 from rfl, show 8 * (0 + 1) = 8 from rfl]
    simp; omega
  | succ n ih =>
    intro x hx hn
    obtain ⟨r, h1, h2⟩ := ih (x / 256) (by rw [Nat.pow_succ] at hx; omega) (by omega)
    have hl : x % 256 < 256 := Nat.mod_lt _ (by decide)
    have hx' : x = 256 * (x / 256) + x % 256 := by omega
    have hones : onesN (8 * (n + 1 + 1)) x = onesN (8 * (n + 1)) (x / 256) + onesN 8 (x % 256) := by
      rw [← onesN_split _ _ _ hl, ← hx']; rfl
    have hbound := onesN_le (8 * (n + 1 + 1)) x
    rw [hones] at hbound ⊢
    rw [show pd (n + 1 + 1) x = 256 * pd (n + 1) (x / 256) + onesN 8 (x % 256) from rfl]
    generalize onesN (8 * (n + 1)) (x / 256) = S at *
    generalize onesN 8 (x % 256) = p at *
    generalize pd (n + 1) (x / 256) = V at *
    have hr1 := rep_one n
    have hr2 := rep_one (n + 1)
    have hrep : rep (n + 1 + 1) 1 = rep (n + 1) 1 + 256 ^ (n + 1) := by
      have := rep_one (n + 1 + 1)
      rw [Nat.pow_succ] at this
      omega
    have hrepn : rep (n + 1) 1 = 256 * rep n 1 + 1 := rfl
    refine ⟨p * rep (n + 1) 1 + 256 * r, ?_, ?_⟩
    · have hA : ∃ q, V * rep (n + 1) 1 = 256 ^ (n + 1) * q + (S * 256 ^ n + r) := by
        refine ⟨V * rep (n + 1) 1 / 256 ^ (n + 1), ?_⟩
        rw [← h1]
        exact (Nat.div_add_mod _ _).symm
      obtain ⟨q, hq⟩ := hA
      have e : (256 * V + p) * rep (n + 1 + 1) 1 =
          (S + p) * 256 ^ (n + 1) + (p * rep (n + 1) 1 + 256 * r) + 256 ^ (n + 1 + 1) * (q + V) := by
        rw [hrep]
        generalize rep (n + 1) 1 = R at *
        rw [Nat.pow_succ 256 (n + 1), Nat.pow_succ 256 n] at *
        generalize 256 ^ n = B at *
        rw [Nat.add_mul, Nat.mul_add p, Nat.mul_add (256 * V), Nat.mul_assoc 256 V R, hq, Nat.add_mul S p, Nat.mul_add,
          Nat.mul_assoc 256 V, Nat.mul_add (B * 256 * 256)]
        have c1 : 256 * (B * 256 * q) = B * 256 * 256 * q := by
          rw [← Nat.mul_assoc, Nat.mul_comm 256 (B * 256)]
        have c2 : 256 * (S * B) = S * (B * 256) := by
          rw [Nat.mul_left_comm, Nat.mul_comm B 256]
        have c3 : 256 * (V * (B * 256)) = B * 256 * 256 * V := by
          rw [Nat.mul_comm V, ← Nat.mul_assoc, Nat.mul_comm 256 (B * 256)]
        have c4 : 256 * (S * B + r) = 256 * (S * B) + 256 * r := Nat.mul_add _ _ _
        omega
      rw [e, Nat.add_mul_mod_self_left]
      apply Nat.mod_eq_of_lt
      -- (S + p) * B' + p * R + 256 * r < 256 * B'
      have hpR : p * rep (n + 1) 1 + 256 * r ≤ (S + p) * rep (n + 1) 1 := by
        have : 256 * r ≤ S * rep (n + 1) 1 := by
          rw [hrepn, Nat.mul_add, Nat.mul_left_comm]
          have := Nat.mul_le_mul_left 256 h2
          omega
        rw [Nat.add_mul]; omega
      have hT : (S + p) * 256 ^ (n + 1) ≤ 254 * 256 ^ (n + 1) := Nat.mul_le_mul_right _ (by omega)
      have hT2 : (S + p) * rep (n + 1) 1 ≤ 255 * rep (n + 1) 1 := Nat.mul_le_mul_right _ (by omega)
      rw [Nat.pow_succ 256 (n + 1)]
      omega
    · have : 256 * r ≤ S * rep (n + 1) 1 := by
        rw [hrepn, Nat.mul_add, Nat.mul_left_comm]
        have := Nat.mul_le_mul_left 256 h2
        omega
      rw [Nat.add_mul]; omega

theorem popcount_spec {w n : Nat} (hw : w = 8 * (n + 1)) (hn : 8 * (n + 1) < 256) (pt : PopcountTraits w)
    (h1 : pt.m1.toNat = rep (n + 1) 0x55) (h2 : pt.m2.toNat = rep (n + 1) 0x33) (h4 : pt.m4.toNat = rep (n + 1) 0x0f)
    (h01 : pt.h01.toNat = rep (n + 1) 1) (hr : pt.rsh = 8 * n) (x : BitVec w) :
    popcount pt x = some (numOnes x) := by
  have hones : numOnes x = onesN w x.toNat := rfl
  unfold popcount
  by_cases h0 : x = 0
  · rw [if_pos h0, hones, h0]
    congr 1
    unfold onesN
    symm
    rw [List.countP_eq_zero]
    simp
  rw [if_neg h0]
  unfold popcountNaive
  rw [if_neg h0, hones]
  dsimp only
  have hpow : 2 ^ w = 256 ^ (n + 1) := by rw [hw, Nat.pow_mul]
  have hx : x.toNat < 256 ^ (n + 1) := by rw [← hpow]; exact x.isLt
  obtain ⟨s1, _, s3, s4⟩ := steps (n + 1) x.toNat hx
  have hrep := rep_mul (n + 1) 0x44
  have hro := rep_one (n + 1)
  have e1 : (x - ((x >>> 1) &&& pt.m1)).toNat = step1 (n + 1) x.toNat := by
    have e : ((x >>> 1) &&& pt.m1).toNat = (x.toNat / 2 &&& rep (n + 1) 0x55) := by
      rw [BitVec.toNat_and, BitVec.toNat_ushiftRight, h1, Nat.shiftRight_eq_div_pow]
    have hle : (x.toNat / 2 &&& rep (n + 1) 0x55) ≤ x.toNat := Nat.le_trans Nat.and_le_left (Nat.div_le_self _ _)
    rw [BitVec.toNat_sub_of_le (by rw [BitVec.le_def, e]; exact hle), e]
    rfl
  generalize x - ((x >>> 1) &&& pt.m1) = y at e1
  have e2 : ((y &&& pt.m2) + ((y >>> 2) &&& pt.m2)).toNat = step2 (n + 1) (step1 (n + 1) x.toNat) := by
    rw [BitVec.toNat_add, BitVec.toNat_and, BitVec.toNat_and, BitVec.toNat_ushiftRight, h2, e1,
      Nat.shiftRight_eq_div_pow, hpow]
    show step2 (n + 1) (step1 (n + 1) x.toNat) % _ = _
    apply Nat.mod_eq_of_lt
    omega
  generalize (y &&& pt.m2) + ((y >>> 2) &&& pt.m2) = z at e2
  have e3 : ((z + (z >>> 4)) &&& pt.m4).toNat = pd (n + 1) x.toNat := by
    rw [BitVec.toNat_and, BitVec.toNat_add, BitVec.toNat_ushiftRight, h4, e2, Nat.shiftRight_eq_div_pow, hpow,
      Nat.mod_eq_of_lt (by omega)]
    exact s4
  generalize (z + (z >>> 4)) &&& pt.m4 = u at e3
  obtain ⟨r, m1, m2⟩ := mul_digits n x.toNat hx hn
  rw [BitVec.toNat_ushiftRight, BitVec.toNat_mul, h01, e3, hpow, m1, hr, Nat.shiftRight_eq_div_pow, Nat.pow_mul, ← hw]
  have hrn := rep_one n
  have hb := onesN_le w x.toNat
  rw [← hw] at m2
  have hT : onesN w x.toNat * rep n 1 ≤ 255 * rep n 1 := Nat.mul_le_mul_right _ (by omega)
  show some ((_ : Nat) / 256 ^ n) = _
  rw [Nat.mul_comm, Nat.mul_add_div (Nat.pow_pos (by decide)), Nat.div_eq_of_lt (by omega), Nat.add_zero]

/-! ### has_single_bit -/

theorem hasSingleBit_spec {w : Nat} (hw : 0 < w) (x : BitVec w) : hasSingleBit x = true ↔ IsPow2 x.toNat := by
  have h1 : (1 : BitVec w).toNat = 1 := by
    show 1 % 2 ^ w = 1
    exact Nat.mod_eq_of_lt (Nat.one_lt_two_pow (by omega))
  have key := @Nat.ne_zero_and_sub_one_eq_zero_iff_isPowerOfTwo x.toNat
  show _ ↔ x.toNat.isPowerOfTwo
  rw [← key]
  unfold hasSingleBit
  have hz : x = 0 ↔ x.toNat = 0 := by
    constructor
    · rintro rfl; simp
    · intro h; apply BitVec.eq_of_toNat_eq; simpa using h
  simp only [Bool.and_eq_true, bne_iff_ne, ne_eq, beq_iff_eq, hz]
  apply and_congr_right
  intro hne
  have hm : (x - 1).toNat = x.toNat - 1 := by
    rw [BitVec.toNat_sub_of_le (by rw [BitVec.le_def, h1]; omega), h1]
  constructor
  · intro h
    have := congrArg BitVec.toNat h
    rw [BitVec.toNat_and, hm] at this
    simpa using this
  · intro h
    apply BitVec.eq_of_toNat_eq
    rw [BitVec.toNat_and, hm, h]; simp

/-! ### bit_pack -/

/-- positional value of unsigned arguments, the first most significant -/
def packNat : List PackArg → Nat
  | [] => 0
  | a :: rest => a.bits.toNat * 2 ^ totalWidth rest + packNat rest

theorem totalWidth_cons (a : PackArg) (l : List PackArg) : totalWidth (a :: l) = a.width + totalWidth l := by
  simp [totalWidth]

theorem packNat_lt (l : List PackArg) : packNat l < 2 ^ totalWidth l := by
  induction l with
  | nil => simp [packNat, totalWidth]
  | cons a l ih =>
    rw [packNat, totalWidth_cons, Nat.pow_add]
    have h1 : (a.bits.toNat + 1) * 2 ^ totalWidth l ≤ 2 ^ a.width * 2 ^ totalWidth l :=
      Nat.mul_le_mul_right _ a.bits.isLt
    rw [Nat.add_mul] at h1
    omega

theorem castTo_unsigned (a : PackArg) (r : Nat) (hs : a.signed = false) (hr : a.width ≤ r) :
    (a.castTo r).toNat = a.bits.toNat := by
  unfold PackArg.castTo
  rw [hs]
  simp only [Bool.false_eq_true, if_false, BitVec.toNat_setWidth]
  exact Nat.mod_eq_of_lt (Nat.lt_of_lt_of_le a.bits.isLt (Nat.pow_le_pow_right (by decide) hr))

theorem bitPackUnsigned_toNat (r : Nat) (l : List PackArg) (hs : ∀ a ∈ l, a.signed = false) (hr : totalWidth l ≤ r) :
    (bitPackUnsigned r l).toNat = packNat l := by
  induction l with
  | nil => simp [bitPackUnsigned, packNat]
  | cons a l ih =>
    rw [totalWidth_cons] at hr
    have ha := castTo_unsigned a r (hs a (by simp)) (by omega)
    cases l with
    | nil => rw [bitPackUnsigned, ha]; simp [packNat, totalWidth]
    | cons b l =>
      rw [bitPackUnsigned, BitVec.toNat_or, BitVec.toNat_shiftLeft, ha, ih (fun x hx => hs x (by simp [hx])) (by omega)]
      · rw [packNat.eq_2 a (b :: l), Nat.shiftLeft_eq]
        have hlt := packNat_lt (a :: b :: l)
        rw [packNat, totalWidth_cons a] at hlt
        have hle : 2 ^ (a.width + totalWidth (b :: l)) ≤ 2 ^ r := Nat.pow_le_pow_right (by decide) hr
        rw [Nat.mod_eq_of_lt (by omega), Nat.mul_comm, ← Nat.two_pow_add_eq_or_of_lt (packNat_lt _)]
      · intro h; cases h

theorem totalWidth_map (l : List PackArg) : totalWidth (l.map PackArg.toUnsigned) = totalWidth l := by
  unfold totalWidth; rw [List.map_map]; rfl

theorem packNat_map (l : List PackArg) : packNat (l.map PackArg.toUnsigned) = packNat l := by
  induction l with
  | nil => rfl
  | cons a l ih =>
    rw [List.map_cons, packNat, packNat, ih, totalWidth_map]; rfl

theorem bitPack_toNat (r : Nat) (rs : Bool) (l : List PackArg) (hr : totalWidth l ≤ r) :
    (bitPack r rs l).toNat = packNat l := by
  unfold bitPack
  split
  · rw [bitPackUnsigned_toNat _ _ (by simp [PackArg.toUnsigned]) (by rw [totalWidth_map]; exact hr), packNat_map]
  · rename_i h
    rw [bitPackUnsigned_toNat _ _ _ hr]
    simpa using fun a ha => by simp at h; exact h.2 a ha

theorem packNat_append (pre l : List PackArg) :
    packNat (pre ++ l) = packNat pre * 2 ^ totalWidth l + packNat l := by
  induction pre with
  | nil => simp [packNat]
  | cons a pre ih =>
    rw [List.cons_append, packNat, packNat, ih]
    have : totalWidth (pre ++ l) = totalWidth pre + totalWidth l := by simp [totalWidth]
    rw [this, Nat.pow_add, Nat.add_mul, Nat.mul_assoc, Nat.add_assoc]

/-! ### apply_alignment -/

theorem and_not_mask {u k : Nat} (v : BitVec u) :
    (v &&& ~~~(BitVec.ofNat u (2 ^ k - 1))).toNat = v.toNat / 2 ^ k * 2 ^ k := by
  have e : v &&& ~~~(BitVec.ofNat u (2 ^ k - 1)) = (v >>> k) <<< k := by
    apply BitVec.eq_of_getLsbD_eq
    intro i hi
    simp only [BitVec.getLsbD_and, BitVec.getLsbD_not, hi, decide_true, Bool.true_and, BitVec.getLsbD_ofNat,
      Nat.testBit_two_pow_sub_one, BitVec.getLsbD_shiftLeft, BitVec.getLsbD_ushiftRight]
    by_cases h : i < k
    · simp [h]
    · simp [h, show k + (i - k) = i by omega]
  rw [e, BitVec.toNat_shiftLeft, BitVec.toNat_ushiftRight, Nat.shiftRight_eq_div_pow, Nat.shiftLeft_eq]
  apply Nat.mod_eq_of_lt
  exact Nat.lt_of_le_of_lt (Nat.div_mul_le_self _ _) v.isLt

theorem pow2_mask {a : BitVec 64} {k : Nat} (ha : a.toNat = 2 ^ k) :
    a ≠ 0 ∧ (a &&& (a - 1)) = 0 ∧ k < 64 := by
  have hk : k < 64 := by
    have := a.isLt
    rw [ha] at this
    exact (Nat.pow_lt_pow_iff_right (by decide)).1 this
  have hp : 0 < 2 ^ k := Nat.two_pow_pos k
  refine ⟨?_, ?_, hk⟩
  · rintro rfl; simp at ha; omega
  · have h := (hasSingleBit_spec (w := 64) (by decide) a).2 ⟨k, ha⟩
    unfold hasSingleBit at h
    simp only [Bool.and_eq_true, beq_iff_eq] at h
    exact h.2

/-- what `apply_alignment` computes -/
theorem applyAlignment_toNat {w : Nat} (x : BitVec w) (a : BitVec 64) {k : Nat} (ha : a.toNat = 2 ^ k) :
    ∃ r, applyAlignment x a = some r ∧
      r.toNat = ((x.toNat + (2 ^ k - 1)) % 2 ^ max w 64) / 2 ^ k * 2 ^ k % 2 ^ w := by
  obtain ⟨h1, h2, hk⟩ := pow2_mask ha
  unfold applyAlignment
  simp only []
  rw [if_neg (by rintro (h | h); exact h1 h; exact h h2)]
  refine ⟨_, rfl, ?_⟩
  have hw : w ≤ max w 64 := Nat.le_max_left _ _
  have h64 : 64 ≤ max w 64 := Nat.le_max_right _ _
  generalize max w 64 = u at *
  have hp : 0 < 2 ^ k := Nat.two_pow_pos k
  have hau : (a.setWidth u).toNat = 2 ^ k := by
    rw [BitVec.toNat_setWidth, ha]
    exact Nat.mod_eq_of_lt (Nat.pow_lt_pow_right (by decide) (by omega))
  have hxu : (x.setWidth u).toNat = x.toNat := by
    rw [BitVec.toNat_setWidth]
    exact Nat.mod_eq_of_lt (Nat.lt_of_lt_of_le x.isLt (Nat.pow_le_pow_right (by decide) hw))
  have hone : (1 : BitVec u).toNat = 1 := by
    show 1 % 2 ^ u = 1
    exact Nat.mod_eq_of_lt (Nat.one_lt_two_pow (by omega))
  have hm : a.setWidth u - 1 = BitVec.ofNat u (2 ^ k - 1) := by
    apply BitVec.eq_of_toNat_eq
    rw [BitVec.toNat_sub_of_le (by rw [BitVec.le_def, hone, hau]; omega), hau, hone, BitVec.toNat_ofNat]
    symm
    apply Nat.mod_eq_of_lt
    have : 2 ^ k < 2 ^ u := Nat.pow_lt_pow_right (by decide) (by omega)
    omega
  have hv : x.setWidth u + a.setWidth u - 1 = x.setWidth u + BitVec.ofNat u (2 ^ k - 1) := by
    rw [BitVec.sub_eq_add_neg, BitVec.add_assoc, ← BitVec.sub_eq_add_neg, hm]
  rw [hv, hm, BitVec.toNat_setWidth, and_not_mask, BitVec.toNat_add, hxu, BitVec.toNat_ofNat, Nat.add_mod_mod]

/-- rounding up -/
theorem roundUp_spec (x A : Nat) (hA : 0 < A) :
    A ∣ (x + (A - 1)) / A * A ∧ x ≤ (x + (A - 1)) / A * A ∧ (x + (A - 1)) / A * A ≤ x + (A - 1) ∧
    ∀ m, A ∣ m → x ≤ m → (x + (A - 1)) / A * A ≤ m := by
  refine ⟨⟨_, Nat.mul_comm _ _⟩, ?_, Nat.div_mul_le_self _ _, ?_⟩
  · have := Nat.div_add_mod (x + (A - 1)) A
    have h2 := Nat.mod_lt (x + (A - 1)) hA
    rw [Nat.mul_comm] at this
    omega
  · rintro m ⟨c, rfl⟩ hx
    rw [Nat.mul_comm A c]
    apply Nat.mul_le_mul_right
    apply Nat.le_of_lt_succ
    rw [Nat.div_lt_iff_lt_mul hA, Nat.succ_mul, Nat.mul_comm c]
    omega

end Verif.Proofs
