import Verif.Model.TaggedPtr
import Verif.Proofs.CInt
import Verif.Props.Bits
/-! Lemmas about tagged_ptr: everything bit by bit. -/
namespace Verif.Proofs.TaggedPtr
open Verif.Spec.CInt Verif.Spec.TaggedPtr Verif.Model.CInt Verif.Model Verif.Model.TaggedPtr

/-- a possible configuration -/
structure Ok (c : Cfg) (k : Nat) : Prop where
  al : c.align = 2 ^ k
  lt : k + c.free < 64

theorem tagBits_eq {c : Cfg} {k : Nat} (h : Ok c k) : c.tagBits = k + c.free := by
  have hk : k < 64 := by have := h.lt; omega
  have hp : 2 ^ k < 2 ^ 64 := Nat.pow_lt_pow_right (by decide) hk
  have hn : (BitVec.ofNat 64 c.align).toNat = 2 ^ k := by
    rw [BitVec.toNat_ofNat, h.al]; exact Nat.mod_eq_of_lt hp
  obtain ⟨r, h1, _, h3⟩ := Verif.Props.C18_bit_width (w := 64) (by simp) (BitVec.ofNat 64 c.align)
  have hne : BitVec.ofNat 64 c.align ≠ 0 := by
    intro h0
    rw [h0] at hn
    have : 0 < 2 ^ k := Nat.two_pow_pos k
    simp at hn
    omega
  obtain ⟨a, b, d⟩ := h3 hne
  rw [hn] at b d
  have e1 : r.toNat - 1 ≤ k := (Nat.pow_le_pow_iff_right (by decide)).mp b
  have e2 : k < r.toNat := (Nat.pow_lt_pow_iff_right (by decide)).mp d
  unfold Cfg.tagBits
  rw [h1]
  simp only [Option.getD_some]
  omega

theorem fill_bit (n i : Nat) : ((bitFillRight 64 n).getD 0).getLsbD i = (decide (i < 64) && decide (i < n)) := by
  obtain ⟨r, l, h1, _, h3, _⟩ := Verif.Props.C22_bit_fill 64 n
  rw [h1, Option.getD_some]
  by_cases hi : i < 64
  · rw [h3 i hi]; simp [hi]
  · rw [BitVec.getLsbD_of_ge _ _ (by omega)]; simp [hi]

theorem tagMask_bit {c : Cfg} {k : Nat} (h : Ok c k) (i : Nat) :
    c.tagMask.getLsbD i = decide (i < k + c.free) := by
  unfold Cfg.tagMask
  rw [fill_bit, tagBits_eq h]
  have := h.lt
  by_cases hi : i < k + c.free <;> simp [hi]; omega

theorem ptrMask_bit {c : Cfg} {k : Nat} (h : Ok c k) (i : Nat) :
    c.ptrMask.getLsbD i = (decide (i < 64) && decide (k + c.free ≤ i)) := by
  unfold Cfg.ptrMask
  rw [BitVec.getLsbD_not, tagMask_bit h]
  by_cases hi : i < k + c.free <;> simp [hi]; omega

theorem pack_bit (c : Cfg) (p : BitVec 64) (i : Nat) :
    (packPtrUnchecked c p).getLsbD i = (decide (i < 64) && decide (c.free ≤ i) && p.getLsbD (i - c.free)) := by
  unfold packPtrUnchecked
  split
  · rw [BitVec.getLsbD_shiftLeft]
    by_cases hi : i < c.free
    · simp [hi]
    · simp [hi, show c.free ≤ i by omega]
  · have : c.free = 0 := by omega
    rw [this]
    by_cases hi : i < 64
    · simp [hi]
    · rw [BitVec.getLsbD_of_ge _ _ (by omega)]; simp [hi]

theorem mod_pow_bits {p : BitVec 64} {k : Nat} (h : p.toNat % 2 ^ k = 0) (i : Nat) (hi : i < k) : p.getLsbD i = false := by
  rw [← BitVec.testBit_toNat]
  have : (p.toNat % 2 ^ k).testBit i = p.toNat.testBit i := by rw [Nat.testBit_mod_two_pow]; simp [hi]
  rw [← this, h]; simp

theorem packPtr_some {c : Cfg} {k : Nat} (h : Ok c k) {p : BitVec 64} (hp : p.toNat % c.align = 0) :
    packPtr c p = some (packPtrUnchecked c p) := by
  unfold packPtr
  by_cases h0 : p = 0
  · rw [if_pos (Or.inl h0)]
  · obtain ⟨r, h1, _, _, h4⟩ := Verif.Props.C18_bit_floor (by decide) p h0
    rw [if_pos (Or.inr ?_)]
    rw [h1, Option.getD_some]
    have hpos : 0 < p.toNat := by
      rcases Nat.eq_zero_or_pos p.toNat with hz | hz
      · exact absurd (BitVec.eq_of_toNat_eq (by simpa using hz)) h0
      · exact hz
    refine h4 _ ⟨k, h.al⟩ ?_
    exact Nat.le_of_dvd hpos (Nat.dvd_of_mod_eq_zero hp)

/-- the word holds the pair -/
structure Holds (c : Cfg) (k : Nat) (w : BitVec 64) (s : Pair) : Prop where
  low : ∀ i, i < k + c.free → w.getLsbD i = s.tag.testBit i
  high : ∀ i, k + c.free ≤ i → i < 64 → w.getLsbD i = s.ptr.getLsbD (i - c.free)
  fits : s.tag < 2 ^ (k + c.free)
  addr : Address c.align c.free c.amd64 s.ptr

theorem tag_testBit_ge {t n i : Nat} (h : t < 2 ^ n) (hi : n ≤ i) : t.testBit i = false :=
  Nat.testBit_lt_two_pow (Nat.lt_of_lt_of_le h (Nat.pow_le_pow_right (by decide) hi))

theorem getTag_holds {c : Cfg} {k : Nat} (h : Ok c k) {w : BitVec 64} {s : Pair} (hh : Holds c k w s) :
    (getTag c w).toNat = s.tag := by
  have hb : ∀ i, (w &&& c.tagMask).toNat.testBit i = s.tag.testBit i := by
    intro i
    rw [BitVec.testBit_toNat, BitVec.getLsbD_and, tagMask_bit h]
    by_cases hi : i < k + c.free
    · rw [hh.low i hi]; simp [hi]
    · rw [tag_testBit_ge hh.fits (by omega)]; simp [hi]
  unfold getTag
  rw [tagBits_eq h]
  by_cases h0 : k + c.free ≠ 0
  · rw [if_pos h0]
    exact Nat.eq_of_testBit_eq hb
  · rw [if_neg h0]
    have := hh.fits
    rw [show k + c.free = 0 by omega] at this
    simp at this
    simp [this]

theorem and_one_shl (w : BitVec 64) (i : Nat) : ((w &&& (1#64 <<< i)) != 0) = w.getLsbD i := by
  have hone : ∀ j, (1#64 <<< i).getLsbD j = (decide (j < 64) && decide (j = i)) := by
    intro j
    rw [BitVec.getLsbD_shiftLeft]
    by_cases hj : j < 64
    · by_cases hji : j < i
      · simp [hji]; omega
      · simp only [hj, hji, decide_true, Bool.true_and, decide_false, Bool.not_false]
        rw [BitVec.getLsbD_one]
        by_cases he : j = i
        · simp [he]
        · simp [he]; omega
    · simp [hj]
  by_cases hb : w.getLsbD i = true
  · rw [hb]
    simp only [bne_iff_ne, ne_eq]
    intro h0
    have hi : i < 64 := BitVec.lt_of_getLsbD hb
    have := congrArg (fun x : BitVec 64 => x.getLsbD i) h0
    simp only [BitVec.getLsbD_and, hb, hone] at this
    simp [hi] at this
  · have hb' : w.getLsbD i = false := by simpa using hb
    rw [hb']
    have : w &&& (1#64 <<< i) = 0 := by
      apply BitVec.eq_of_getLsbD_eq
      intro j hj
      rw [BitVec.getLsbD_and, hone]
      by_cases he : j = i
      · subst he; simp [hb']
      · simp [he]
    rw [this]; simp

theorem one_shl_bit (i j : Nat) : (1#64 <<< i).getLsbD j = (decide (j < 64) && decide (j = i)) := by
  rw [BitVec.getLsbD_shiftLeft]
  by_cases hj : j < 64
  · by_cases hji : j < i
    · simp [hji]; omega
    · simp only [hj, hji, decide_true, Bool.true_and, decide_false, Bool.not_false]
      rw [BitVec.getLsbD_one]
      by_cases he : j = i
      · simp [he]
      · simp [he]; omega
  · simp [hj]

theorem getPtr_holds {c : Cfg} {k : Nat} (h : Ok c k) {w : BitVec 64} {s : Pair} (hh : Holds c k w s) :
    getPtr c w = s.ptr := by
  have hlt := h.lt
  have hal : ∀ i, i < k → s.ptr.getLsbD i = false := fun i hi =>
    mod_pow_bits (by rw [← h.al]; exact hh.addr.1) i hi
  unfold getPtr
  simp only
  by_cases hf : c.free > 0
  · rw [if_pos hf]
    -- after the shift
    have hsh : ∀ i, ((w &&& c.ptrMask) >>> c.free).getLsbD i = (decide (i < 64 - c.free) && s.ptr.getLsbD i) := by
      intro i
      rw [BitVec.getLsbD_ushiftRight, BitVec.getLsbD_and, ptrMask_bit h]
      by_cases hi : i < 64 - c.free
      · by_cases hk : i < k
        · rw [hal i hk]; simp; intro _ _; omega
        · rw [hh.high (c.free + i) (by omega) (by omega)]
          rw [show c.free + i - c.free = i by omega]
          simp [hi, show c.free + i < 64 by omega, show k + c.free ≤ c.free + i by omega]
      · simp [hi]; intro _ h'; omega
    have hcanon := hh.addr.2
    by_cases hc : c.amd64 = true ∧ ((w &&& c.ptrMask) >>> c.free &&& 1#64 <<< (64 - c.free - 1)) ≠ 0
    · rw [if_pos hc]
      have hbit : s.ptr.getLsbD (63 - c.free) = true := by
        have := and_one_shl ((w &&& c.ptrMask) >>> c.free) (64 - c.free - 1)
        rw [hsh, show 64 - c.free - 1 = 63 - c.free by omega] at this
        have h2 := hc.2
        rw [show 64 - c.free - 1 = 63 - c.free by omega] at h2
        rw [← bne_iff_ne, this] at h2
        simp at h2
        exact h2.2
      apply BitVec.eq_of_getLsbD_eq
      intro i hi
      rw [BitVec.getLsbD_or, hsh, BitVec.getLsbD_shiftLeft, fill_bit]
      by_cases hlow : i < 64 - c.free
      · simp [hlow]
      · rw [hcanon i (by omega) hi, hbit, hc.1]
        simp [hlow, hi]; omega
    · rw [if_neg hc]
      apply BitVec.eq_of_getLsbD_eq
      intro i hi
      rw [hsh]
      by_cases hlow : i < 64 - c.free
      · simp [hlow]
      · rw [hcanon i (by omega) hi]
        by_cases hamd : c.amd64 = true
        · have h2 : ((w &&& c.ptrMask) >>> c.free &&& 1#64 <<< (64 - c.free - 1)) = 0 := by
            apply Classical.byContradiction
            intro hne; exact hc ⟨hamd, hne⟩
          have := and_one_shl ((w &&& c.ptrMask) >>> c.free) (64 - c.free - 1)
          rw [h2, hsh, show 64 - c.free - 1 = 63 - c.free by omega] at this
          simp [show 63 - c.free < 64 - c.free by omega] at this
          simp [hlow, ← this]
        · simp [hlow, hamd]
  · rw [if_neg hf]
    have hf0 : c.free = 0 := by omega
    apply BitVec.eq_of_getLsbD_eq
    intro i hi
    rw [BitVec.getLsbD_and, ptrMask_bit h]
    by_cases hk : i < k
    · rw [hal i hk]; simp; intro _ _; omega
    · rw [hh.high i (by omega) hi]
      simp [hi, hf0]; intro _; omega

theorem isSet_holds {c : Cfg} {k : Nat} (h : Ok c k) {w : BitVec 64} {s : Pair} (hh : Holds c k w s) :
    isSet c w = true ↔ s.ptr ≠ 0 := by
  unfold isSet
  rw [bne_iff_ne, ne_eq, ne_eq, not_iff_not]
  have hlt := h.lt
  have hal : ∀ i, i < k → s.ptr.getLsbD i = false := fun i hi =>
    mod_pow_bits (by rw [← h.al]; exact hh.addr.1) i hi
  constructor
  · intro h0
    have hlow : ∀ i, i < 64 - c.free → s.ptr.getLsbD i = false := by
      intro i hi
      by_cases hk : i < k
      · exact hal i hk
      · have := congrArg (fun x : BitVec 64 => x.getLsbD (i + c.free)) h0
        simp only [BitVec.getLsbD_and, ptrMask_bit h] at this
        rw [hh.high (i + c.free) (by omega) (by omega), show i + c.free - c.free = i by omega] at this
        simpa [show i + c.free < 64 by omega, show k + c.free ≤ i + c.free by omega] using this
    apply BitVec.eq_of_getLsbD_eq
    intro i hi
    by_cases hl : i < 64 - c.free
    · rw [hlow i hl]; simp
    · rw [hh.addr.2 i (by omega) hi, hlow (63 - c.free) (by omega)]; simp
  · intro h0
    apply BitVec.eq_of_getLsbD_eq
    intro i hi
    rw [BitVec.getLsbD_and, ptrMask_bit h]
    by_cases hk : k + c.free ≤ i
    · rw [hh.high i hk hi, h0]; simp
    · simp [hk]

/-- storing the pair (p, n), where `x` already holds the packed pointer -/
theorem holds_or {c : Cfg} {k : Nat} (h : Ok c k) {p x y : BitVec 64} {n : Nat} (hn : n < 2 ^ (k + c.free))
    (ha : Address c.align c.free c.amd64 p)
    (hx1 : ∀ i, i < k + c.free → x.getLsbD i = false)
    (hx2 : ∀ i, k + c.free ≤ i → i < 64 → x.getLsbD i = p.getLsbD (i - c.free))
    (hy1 : ∀ i, i < k + c.free → y.getLsbD i = n.testBit i)
    (hy2 : ∀ i, k + c.free ≤ i → y.getLsbD i = false) :
    Holds c k (x ||| y) ⟨p, n⟩ := by
  refine ⟨?_, ?_, hn, ha⟩
  · intro i hi
    rw [BitVec.getLsbD_or, hx1 i hi, hy1 i hi]; simp
  · intro i hi hi2
    rw [BitVec.getLsbD_or, hx2 i hi hi2, hy2 i hi]; simp

theorem pack_low {c : Cfg} {k : Nat} (h : Ok c k) {p : BitVec 64} (ha : Address c.align c.free c.amd64 p) (i : Nat)
    (hi : i < k + c.free) : (packPtrUnchecked c p).getLsbD i = false := by
  rw [pack_bit]
  by_cases hf : c.free ≤ i
  · rw [mod_pow_bits (k := k) (by rw [← h.al]; exact ha.1) _ (by omega)]; simp
  · simp [hf]

theorem pack_high {c : Cfg} {k : Nat} (_h : Ok c k) {p : BitVec 64} (i : Nat)
    (hi : k + c.free ≤ i) (hi2 : i < 64) : (packPtrUnchecked c p).getLsbD i = p.getLsbD (i - c.free) := by
  rw [pack_bit]; simp [hi2, show c.free ≤ i by omega]

/-- the pattern of an integer -/
theorem asUnsigned_eq (t : Ty) (v : Int) : asUnsigned t v = ((v % 2 ^ t.bits).toNat : Int) := by
  have : (0 : Int) ≤ v % 2 ^ t.bits := Int.emod_nonneg _ (by have := Verif.Proofs.CInt.two_pow_pos t.bits; omega)
  unfold asUnsigned conv
  simp; omega

theorem toWord_nat (n : Nat) : toWord (n : Int) = BitVec.ofNat 64 n := by
  unfold toWord; rw [BitVec.ofInt_natCast]

theorem ofNat_bit {n T : Nat} (hT : T ≤ 64) (hn : n < 2 ^ T) (i : Nat) : (BitVec.ofNat 64 n).getLsbD i = n.testBit i := by
  rw [BitVec.getLsbD_ofNat]
  by_cases hi : i < 64
  · simp [hi]
  · rw [tag_testBit_ge hn (by omega)]; simp

theorem mask_zero_lt {c : Cfg} {k : Nat} (h : Ok c k) {n : Nat} (hn : n < 2 ^ 64)
    (hz : (BitVec.ofNat 64 n &&& c.ptrMask) = 0) : n < 2 ^ (k + c.free) := by
  apply Nat.lt_pow_two_of_testBit
  intro i hi
  by_cases hi2 : i < 64
  · have := congrArg (fun x : BitVec 64 => x.getLsbD i) hz
    simp only [BitVec.getLsbD_and, ptrMask_bit h, ofNat_bit (Nat.le_refl 64) hn] at this
    simpa [hi, hi2] using this
  · exact tag_testBit_ge hn (by omega)

theorem pattern_lt_bits {tag : Tag} : tag.pattern < 2 ^ tag.bits := by
  have key : ∀ (t : Ty) (v : Int), (v % 2 ^ t.bits).toNat < 2 ^ t.bits := by
    intro t v
    have hp := Verif.Proofs.CInt.two_pow_pos t.bits
    have h1 : (0 : Int) ≤ v % 2 ^ t.bits := Int.emod_nonneg _ (by omega)
    have h2 : v % 2 ^ t.bits < 2 ^ t.bits := Int.emod_lt_of_pos _ hp
    have h3 : ((v % 2 ^ t.bits).toNat : Int) < ((2 ^ t.bits : Nat) : Int) := by
      push_cast; omega
    exact_mod_cast h3
  cases tag with
  | int t v => exact key t v
  | enm t v => exact key t v
  | chr t v => exact key t v
  | obj n b => exact b.isLt

theorem pattern_lt {c : Cfg} {k : Nat} (h : Ok c k) {tag : Tag} (hv : tag.Valid) (hs : canStoreTag c tag = true) :
    tag.pattern < 2 ^ (k + c.free) := by
  unfold canStoreTag at hs
  rw [tagBits_eq h] at hs
  by_cases h0 : k + c.free = 0
  · rw [if_pos h0] at hs; simp at hs
  rw [if_neg h0] at hs
  by_cases h1 : tag.bits ≤ k + c.free
  · exact Nat.lt_of_lt_of_le pattern_lt_bits (Nat.pow_le_pow_right (by decide) h1)
  rw [if_neg h1] at hs
  have key : ∀ (t : Ty) (v : Int), t.bits ≤ 64 → ((toWord (asUnsigned t v) &&& c.ptrMask) == 0) = true →
      (v % 2 ^ t.bits).toNat < 2 ^ (k + c.free) := by
    intro t v h64 hz
    rw [beq_iff_eq, asUnsigned_eq, toWord_nat] at hz
    refine mask_zero_lt h ?_ hz
    have : (v % 2 ^ t.bits).toNat < 2 ^ t.bits := pattern_lt_bits (tag := .int t v)
    exact Nat.lt_of_lt_of_le this (Nat.pow_le_pow_right (by decide) h64)
  cases tag with
  | int t v => exact key t v hv.2.2.1 hs
  | enm t v => exact key t v hv.2.2.1 hs
  | chr t v => simp at hs
  | obj n b => simp at hs

/-- a value that is not negative is its pattern -/
theorem pattern_of_nonneg {t : Ty} {v : Int} (hv : t.Has v) (hb : 0 < t.bits) (h0 : 0 ≤ v) :
    v = ((v % 2 ^ t.bits).toNat : Int) := by
  have hhi : v < 2 ^ t.bits := by
    have := hv.2
    unfold Ty.hi at this
    have h1 := Verif.Proofs.CInt.two_pow_pred hb
    have h2 := Verif.Proofs.CInt.two_pow_pos (t.bits - 1)
    split at this <;> omega
  rw [Int.emod_eq_of_lt h0 hhi]; omega

end Verif.Proofs.TaggedPtr
