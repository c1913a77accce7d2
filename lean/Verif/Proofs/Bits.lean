import Verif.Model.Bits
import Verif.Spec.Bits

/-! Lemmas for the bit utilities. -/
namespace Verif.Proofs
open Verif.Spec Verif.Model

/-! ### single bits -/

theorem and_bit {w : Nat} (val : BitVec w) (k : Nat) (hk : k < w) :
    (1#w <<< k) &&& val ≠ 0 ↔ val.getLsbD k = true := by
  have h := BitVec.and_twoPow val k
  rw [BitVec.and_comm]
  show val &&& BitVec.twoPow w k ≠ 0 ↔ _
  rw [h]
  split
  · rename_i hb
    simp only [hb, iff_true]
    intro h0
    have := congrArg (fun x => x.getLsbD k) h0
    simp [BitVec.getLsbD_twoPow, hk] at this
  · rename_i hb
    simp [hb]

theorem bit_shr {w : Nat} (k : Nat) (hk : k + 1 < w) : (1#w <<< (k + 1)) >>> 1 = 1#w <<< k := by
  apply BitVec.eq_of_getLsbD_eq
  intro i hi
  show ((BitVec.twoPow w (k + 1)) >>> 1).getLsbD i = (BitVec.twoPow w k).getLsbD i
  simp only [BitVec.getLsbD_ushiftRight, BitVec.getLsbD_twoPow]
  by_cases h : i = k
  · subst h; simp [hk, Nat.add_comm 1]; omega
  · have : k + 1 ≠ 1 + i := by omega
    have h2 : k ≠ i := by omega
    simp [this, h2]

theorem bit_shl {w : Nat} (k : Nat) : (1#w <<< k) <<< 1 = 1#w <<< (k + 1) := by
  rw [← BitVec.shiftLeft_add]

/-! ### countl, countr -/

theorem countlLoop_spec {w : Nat} (val : BitVec w) (k : Nat) (hk : k < w) (count : Nat)
    (hex : ∃ j ≤ k, val.getLsbD j = true) :
    ∃ j ≤ k, val.getLsbD j = true ∧ (∀ i, j < i → i ≤ k → val.getLsbD i = false) ∧
      countlLoop val (k + 1) (1#w <<< k) count = some (count + (k - j)) := by
  induction k generalizing count with
  | zero =>
    obtain ⟨j, hj, hb⟩ := hex
    obtain rfl : j = 0 := by omega
    refine ⟨0, by omega, hb, by omega, ?_⟩
    rw [countlLoop, if_pos ((and_bit val 0 hk).2 hb)]
    rfl
  | succ k ih =>
    by_cases hb : val.getLsbD (k + 1) = true
    · refine ⟨k + 1, by omega, hb, by omega, ?_⟩
      rw [countlLoop, if_pos ((and_bit val _ hk).2 hb)]
      simp
    · obtain ⟨j, hj, hjb⟩ := hex
      have hjk : j ≤ k := by
        rcases Nat.lt_or_ge k j with h | h
        · obtain rfl : j = k + 1 := by omega
          exact absurd hjb hb
        · exact h
      obtain ⟨j', h1, h2, h3, h4⟩ := ih (by omega) (count + 1) ⟨j, hjk, hjb⟩
      refine ⟨j', by omega, h2, ?_, ?_⟩
      · intro i hi hik
        by_cases he : i = k + 1
        · subst he; simpa using hb
        · exact h3 i hi (by omega)
      · rw [countlLoop, if_neg (fun h => hb ((and_bit val _ hk).1 h)), bit_shr k hk, h4]
        congr 1; omega

theorem exists_bit {w : Nat} (val : BitVec w) (h : val ≠ 0) : ∃ j < w, val.getLsbD j = true := by
  apply Classical.byContradiction
  intro hn
  apply h
  apply BitVec.eq_of_getLsbD_eq
  intro i hi
  cases hb : val.getLsbD i with
  | false => simp
  | true => exact absurd ⟨i, hi, hb⟩ hn

theorem countlZero_spec {w : Nat} (hw : 0 < w) (val : BitVec w) :
    ∃ n, countlZero val = some n ∧ LeadingRun false val n := by
  unfold countlZero countlZeroNaive
  by_cases h0 : val = 0
  · rw [if_pos h0]
    refine ⟨w, rfl, Nat.le_refl _, ?_, by omega⟩
    intro i _; rw [h0]; simp [BitVec.getMsbD]
  · rw [if_neg h0]
    obtain ⟨j, hj, hb⟩ := exists_bit val h0
    obtain ⟨j', h1, h2, h3, h4⟩ := countlLoop_spec val (w - 1) (by omega) 0 ⟨j, by omega, hb⟩
    rw [show w - 1 + 1 = w by omega] at h4
    refine ⟨w - 1 - j', by rw [h4]; simp, by omega, ?_, ?_⟩
    · intro i hi
      rw [BitVec.getMsbD]
      simp only [show i < w by omega, decide_true, Bool.true_and]
      exact h3 _ (by omega) (by omega)
    · intro _
      rw [BitVec.getMsbD]
      simp only [show w - 1 - j' < w by omega, decide_true, Bool.true_and]
      rw [show w - 1 - (w - 1 - j') = j' by omega, h2]; rfl

theorem LeadingRun.unique {w : Nat} {b : Bool} {x : BitVec w} {m n : Nat} (hm : LeadingRun b x m) (hn : LeadingRun b x n) :
    m = n := by
  obtain ⟨m1, m2, m3⟩ := hm
  obtain ⟨n1, n2, n3⟩ := hn
  rcases Nat.lt_trichotomy m n with h | h | h
  · have a := n2 m h; rw [m3 (by omega)] at a; cases b <;> simp at a
  · exact h
  · have a := m2 n h; rw [n3 (by omega)] at a; cases b <;> simp at a

theorem TrailingRun.unique {w : Nat} {b : Bool} {x : BitVec w} {m n : Nat} (hm : TrailingRun b x m) (hn : TrailingRun b x n) :
    m = n := by
  obtain ⟨m1, m2, m3⟩ := hm
  obtain ⟨n1, n2, n3⟩ := hn
  rcases Nat.lt_trichotomy m n with h | h | h
  · have a := n2 m h; rw [m3 (by omega)] at a; cases b <;> simp at a
  · exact h
  · have a := m2 n h; rw [n3 (by omega)] at a; cases b <;> simp at a

theorem LeadingRun.not {w : Nat} {x : BitVec w} {n : Nat} (h : LeadingRun false (~~~x) n) : LeadingRun true x n := by
  obtain ⟨h1, h2, h3⟩ := h
  refine ⟨h1, fun i hi => ?_, fun hn => ?_⟩
  · have := h2 i hi; rw [BitVec.getMsbD_not] at this; simpa [show i < w by omega] using this
  · have := h3 hn; rw [BitVec.getMsbD_not] at this; simpa [hn] using this

theorem TrailingRun.not {w : Nat} {x : BitVec w} {n : Nat} (h : TrailingRun false (~~~x) n) : TrailingRun true x n := by
  obtain ⟨h1, h2, h3⟩ := h
  refine ⟨h1, fun i hi => ?_, fun hn => ?_⟩
  · have := h2 i hi; rw [BitVec.getLsbD_not] at this; simpa [show i < w by omega] using this
  · have := h3 hn; rw [BitVec.getLsbD_not] at this; simpa [hn] using this

theorem countlZero128_spec (val : BitVec 128) : ∃ n, countlZero128 val = some n ∧ LeadingRun false val n := by
  obtain ⟨n, hn, h1, h2, h3⟩ := countlZero_spec (w := 64) (by decide) ((val >>> 64).setWidth 64)
  obtain ⟨m, hm, g1, g2, g3⟩ := countlZero_spec (w := 64) (by decide) (val.setWidth 64)
  have hhi : ∀ i < 64, ((val >>> 64).setWidth 64).getMsbD i = val.getMsbD i := by
    intro i hi
    simp only [BitVec.getMsbD, hi, decide_true, Bool.true_and, BitVec.getLsbD_setWidth, BitVec.getLsbD_ushiftRight,
      show i < 128 by omega]
    rw [show 64 + (64 - 1 - i) = 128 - 1 - i by omega]
    simp; omega
  have hlo : ∀ i < 64, (val.setWidth 64).getMsbD i = val.getMsbD (64 + i) := by
    intro i hi
    simp only [BitVec.getMsbD, hi, decide_true, Bool.true_and, BitVec.getLsbD_setWidth,
      show 64 + i < 128 by omega]
    rw [show 128 - 1 - (64 + i) = 64 - 1 - i by omega]
    simp; omega
  unfold countlZero128
  rw [hn, Option.bind_some]
  by_cases hlt : n < 64
  · rw [if_pos hlt]
    refine ⟨n, rfl, by omega, fun i hi => ?_, fun _ => ?_⟩
    · rw [← hhi i (by omega)]; exact h2 i hi
    · rw [← hhi n hlt]; exact h3 hlt
  · rw [if_neg hlt, hm]
    have : n = 64 := by omega
    subst this
    refine ⟨64 + m, rfl, by omega, fun i hi => ?_, fun hlt' => ?_⟩
    · by_cases hi64 : i < 64
      · rw [← hhi i hi64]; exact h2 i hi64
      · have := g2 (i - 64) (by omega)
        rw [hlo _ (by omega), show 64 + (i - 64) = i by omega] at this
        exact this
    · rw [← hlo m (by omega)]; exact g3 (by omega)

theorem countrLoop_spec {w : Nat} (val : BitVec w) (fuel k : Nat) (hf : fuel + k = w) (count : Nat)
    (hex : ∃ j, k ≤ j ∧ j < w ∧ val.getLsbD j = true) :
    ∃ j, k ≤ j ∧ j < w ∧ val.getLsbD j = true ∧ (∀ i, k ≤ i → i < j → val.getLsbD i = false) ∧
      countrLoop val fuel (1#w <<< k) count = some (count + (j - k)) := by
  induction fuel generalizing k count with
  | zero => obtain ⟨j, h1, h2, _⟩ := hex; omega
  | succ fuel ih =>
    by_cases hb : val.getLsbD k = true
    · refine ⟨k, by omega, by omega, hb, by omega, ?_⟩
      rw [countrLoop, if_pos ((and_bit val _ (by omega)).2 hb)]
      simp
    · obtain ⟨j, hj, hjw, hjb⟩ := hex
      have hjk : k + 1 ≤ j := by
        rcases Nat.lt_or_ge k j with h | h
        · exact h
        · obtain rfl : j = k := by omega
          exact absurd hjb hb
      obtain ⟨j', h1, h1', h2, h3, h4⟩ := ih (k + 1) (by omega) (count + 1) ⟨j, hjk, hjw, hjb⟩
      refine ⟨j', by omega, h1', h2, ?_, ?_⟩
      · intro i hi hik
        by_cases he : i = k
        · subst he; simpa using hb
        · exact h3 i (by omega) hik
      · rw [countrLoop, if_neg (fun h => hb ((and_bit val _ (by omega)).1 h)), bit_shl k, h4]
        congr 1; omega

theorem countrZero_spec {w : Nat} (val : BitVec w) :
    ∃ n, countrZero val = some n ∧ TrailingRun false val n := by
  unfold countrZero countrZeroNaive
  by_cases h0 : val = 0
  · rw [if_pos h0]
    refine ⟨w, rfl, Nat.le_refl _, ?_, by omega⟩
    intro i _; rw [h0]; simp
  · rw [if_neg h0, if_neg h0]
    obtain ⟨j, hj, hb⟩ := exists_bit val h0
    obtain ⟨j', h1, h1', h2, h3, h4⟩ := countrLoop_spec val w 0 (by omega) 0 ⟨j, by omega, hj, hb⟩
    refine ⟨j', by simpa using h4, by omega, fun i hi => h3 i (by omega) hi, fun _ => by rw [h2]; rfl⟩

theorem countrZero128_spec (val : BitVec 128) : ∃ n, countrZero128 val = some n ∧ TrailingRun false val n := by
  obtain ⟨n, hn, h1, h2, h3⟩ := countrZero_spec (val.setWidth 64)
  obtain ⟨m, hm, g1, g2, g3⟩ := countrZero_spec ((val >>> 64).setWidth 64)
  have hlo : ∀ i < 64, (val.setWidth 64).getLsbD i = val.getLsbD i := by
    intro i hi; simp [BitVec.getLsbD_setWidth, hi]
  have hhi : ∀ i < 64, ((val >>> 64).setWidth 64).getLsbD i = val.getLsbD (64 + i) := by
    intro i hi; simp [BitVec.getLsbD_setWidth, BitVec.getLsbD_ushiftRight, hi]
  unfold countrZero128
  rw [hn, Option.bind_some]
  by_cases hlt : n < 64
  · rw [if_pos hlt]
    refine ⟨n, rfl, by omega, fun i hi => ?_, fun _ => ?_⟩
    · rw [← hlo i (by omega)]; exact h2 i hi
    · rw [← hlo n hlt]; exact h3 hlt
  · rw [if_neg hlt, hm]
    have : n = 64 := by omega
    subst this
    refine ⟨64 + m, rfl, by omega, fun i hi => ?_, fun hlt' => ?_⟩
    · by_cases hi64 : i < 64
      · rw [← hlo i hi64]; exact h2 i hi64
      · have := g2 (i - 64) (by omega)
        rw [hhi _ (by omega), show 64 + (i - 64) = i by omega] at this
        exact this
    · rw [← hhi m (by omega)]; exact g3 (by omega)

/-! ### powers of two -/

/-- the leading run of zeros of a non-zero number locates it between two powers of two -/
theorem LeadingRun.bounds {w : Nat} {x : BitVec w} {n : Nat} (h : LeadingRun false x n) (h0 : x ≠ 0) :
    n < w ∧ 2 ^ (w - 1 - n) ≤ x.toNat ∧ x.toNat < 2 ^ (w - n) := by
  obtain ⟨h1, h2, h3⟩ := h
  have hn : n < w := by
    apply Classical.byContradiction
    intro hn
    apply h0
    apply BitVec.eq_of_getMsbD_eq
    intro i hi
    rw [h2 i (by omega)]; simp [BitVec.getMsbD]
  have hz : ∀ j, w - n ≤ j → x.getLsbD j = false := by
    intro j hj
    by_cases hjw : j < w
    · have := h2 (w - 1 - j) (by omega)
      simp only [BitVec.getMsbD, show w - 1 - j < w by omega, decide_true, Bool.true_and] at this
      rw [show w - 1 - (w - 1 - j) = j by omega] at this
      exact this
    · exact BitVec.getLsbD_of_ge x j (by omega)
  have hone : x.toNat.testBit (w - 1 - n) = true := by
    have := h3 hn
    simp only [BitVec.getMsbD, hn, decide_true, Bool.true_and] at this
    exact this
  refine ⟨hn, Nat.ge_two_pow_of_testBit hone, ?_⟩
  apply Nat.lt_pow_two_of_testBit
  intro i hi
  exact hz i hi

theorem pow_succ_pred {w n : Nat} (hn : n < w) : 2 ^ (w - n) = 2 * 2 ^ (w - 1 - n) := by
  rw [show w - n = (w - 1 - n) + 1 by omega, Nat.pow_succ, Nat.mul_comm]

theorem pow_lt_two {a b : Nat} (h : 2 ^ a < 2 * 2 ^ b) : 2 ^ a ≤ 2 ^ b := by
  rw [← Nat.pow_succ', Nat.pow_lt_pow_iff_right (by decide)] at h
  exact Nat.pow_le_pow_right (by decide) (by omega)

theorem bitFloor_spec {w : Nat} {clz : BitVec w → Option Nat} (hclz : ∀ v, ∃ n, clz v = some n ∧ LeadingRun false v n)
    (x : BitVec w) (h0 : x ≠ 0) :
    ∃ r, bitFloor clz x = some r ∧ IsPow2 r.toNat ∧ r.toNat ≤ x.toNat ∧ ∀ p, IsPow2 p → p ≤ x.toNat → p ≤ r.toNat := by
  obtain ⟨n, hn, hr⟩ := hclz x
  obtain ⟨b1, b2, b3⟩ := LeadingRun.bounds hr h0
  unfold bitFloor shlOne
  rw [if_neg h0, hn, Option.bind_some, if_pos (by omega)]
  have ht : (BitVec.ofNat w (2 ^ (w - 1 - n))).toNat = 2 ^ (w - 1 - n) := by
    rw [BitVec.toNat_ofNat]; exact Nat.mod_eq_of_lt (Nat.pow_lt_pow_right (by decide) (by omega))
  refine ⟨_, rfl, ⟨_, ht⟩, by rw [ht]; exact b2, ?_⟩
  rintro p ⟨k, rfl⟩ hp
  rw [ht]
  rw [pow_succ_pred b1] at b3
  exact pow_lt_two (by omega)

theorem bitCeil_spec {w : Nat} (hw : 0 < w) {clz : BitVec w → Option Nat}
    (hclz : ∀ v, ∃ n, clz v = some n ∧ LeadingRun false v n) (x : BitVec w) (h : x.toNat ≤ 2 ^ (w - 1)) :
    ∃ r, bitCeil clz x = some r ∧ IsPow2 r.toNat ∧ x.toNat ≤ r.toNat ∧ ∀ p, IsPow2 p → x.toNat ≤ p → r.toNat ≤ p := by
  unfold bitCeil
  have h1 : (1 : BitVec w).toNat = 1 := by
    show 1 % 2 ^ w = 1
    exact Nat.mod_eq_of_lt (Nat.one_lt_two_pow (by omega))
  by_cases h0 : x = 0
  · rw [if_pos h0]
    refine ⟨1, rfl, ⟨0, h1⟩, by rw [h0]; simp, ?_⟩
    rintro p ⟨k, rfl⟩ _
    rw [h1]
    exact Nat.one_le_two_pow
  · rw [if_neg h0]
    have hx : 0 < x.toNat := by
      apply Nat.pos_of_ne_zero
      intro hh; apply h0; apply BitVec.eq_of_toNat_eq; simpa using hh
    have hm : (x - 1).toNat = x.toNat - 1 := by
      have hlt := x.isLt
      rw [BitVec.toNat_sub, h1]
      have hpos : 0 < 2 ^ w := Nat.two_pow_pos w
      rw [show 2 ^ w - 1 + x.toNat = (x.toNat - 1) + 2 ^ w by omega, Nat.add_mod_right]
      exact Nat.mod_eq_of_lt (by omega)
    obtain ⟨n, hn, hr⟩ := hclz (x - 1)
    rw [hn, Option.bind_some]
    unfold shlOne
    by_cases hx1 : x - 1 = 0
    · have hx1' : x.toNat = 1 := by rw [hx1] at hm; simp at hm; omega
      have hnw : n = w := by
        rcases Nat.lt_or_ge n w with hlt | hge
        · have := hr.2.2 hlt; rw [hx1] at this; simp [BitVec.getMsbD] at this
        · have := hr.1; omega
      subst hnw
      rw [if_pos (by omega)]
      have h1' : (BitVec.ofNat n (2 ^ (n - n))).toNat = 1 := by rw [Nat.sub_self]; exact h1
      refine ⟨_, rfl, ⟨0, h1'⟩, by rw [h1', hx1']; exact Nat.le_refl _, ?_⟩
      rintro p ⟨k, rfl⟩ hp
      rw [h1']; omega
    · obtain ⟨b1, b2, b3⟩ := LeadingRun.bounds hr hx1
      rw [hm] at b2 b3
      have hnz : n ≠ 0 := by
        rintro rfl
        rw [Nat.sub_zero] at b2
        omega
      rw [if_pos (by omega)]
      have ht : (BitVec.ofNat w (2 ^ (w - n))).toNat = 2 ^ (w - n) := by
        rw [BitVec.toNat_ofNat]; exact Nat.mod_eq_of_lt (Nat.pow_lt_pow_right (by decide) (by omega))
      refine ⟨_, rfl, ⟨_, ht⟩, by rw [ht]; omega, ?_⟩
      rintro p ⟨k, rfl⟩ hp
      rw [ht]
      have hlt : 2 ^ (w - 1 - n) < 2 ^ k := by omega
      rw [Nat.pow_lt_pow_iff_right (by decide)] at hlt
      exact Nat.pow_le_pow_right (by decide) (by omega)

end Verif.Proofs
