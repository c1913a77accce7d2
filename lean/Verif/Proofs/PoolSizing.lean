import Verif.Model.PoolSizing
import Verif.Spec.PoolSizing
import Verif.Proofs.Bits2
/-! Lemmas about the sizing of a thread pool: rounding of doubles, the queue size, the layout. -/
namespace Verif.Proofs.PoolSizing
open Verif.Spec.PoolSizing Verif.Model.PoolSizing Verif.Model

/-! ### Rounding -/

theorem rne_bounds (num den : Nat) (hd : 0 < den) :
    2 * num ≤ 2 * (rne num den * den) + den ∧ 2 * (rne num den * den) ≤ 2 * num + den := by
  have h1 := Nat.div_add_mod num den
  have h2 := Nat.mod_lt num hd
  have h3 : num / den * den = den * (num / den) := Nat.mul_comm _ _
  unfold rne
  simp only
  split
  · omega
  · split
    · rw [Nat.add_mul, Nat.one_mul]; omega
    · have : num / den % 2 = 0 ∨ num / den % 2 = 1 := by omega
      rcases this with h | h <;> rw [h, Nat.add_mul] <;> omega

theorem rne_exact (k den : Nat) (hd : 0 < den) : rne (k * den) den = k := by
  unfold rne
  simp only [Nat.mul_div_cancel k hd, Nat.mul_mod_left]
  rw [if_pos (by omega)]

theorem round_exact (num den k : Nat) (hd : 0 < den)
    (h : num * 2 ^ 64 = k * (den * 2 ^ (Nat.log2 (num * 2 ^ 64 / den) - 52))) :
    roundDouble num den * den = num * 2 ^ 64 := by
  unfold roundDouble
  simp only
  generalize Nat.log2 (num * 2 ^ 64 / den) - 52 = e at *
  rw [h, rne_exact _ _ (Nat.mul_pos hd (Nat.two_pow_pos _))]
  rw [Nat.mul_assoc, Nat.mul_comm (2 ^ e) den]

theorem round_bounds (num den : Nat) (hd : 0 < den) (hq : 2 ^ 52 * den ≤ num * 2 ^ 64) :
    2 ^ 53 * (num * 2 ^ 64) ≤ 2 ^ 53 * (roundDouble num den * den) + num * 2 ^ 64 ∧
    2 ^ 53 * (roundDouble num den * den) ≤ 2 ^ 53 * (num * 2 ^ 64) + num * 2 ^ 64 := by
  unfold roundDouble
  simp only
  generalize num * 2 ^ 64 = N at *
  have hQ : 2 ^ 52 ≤ N / den := (Nat.le_div_iff_mul_le hd).mpr hq
  have hQ0 : N / den ≠ 0 := by
    have : (0 : Nat) < 2 ^ 52 := by decide
    omega
  have hlog : 52 ≤ Nat.log2 (N / den) := (Nat.le_log2 hQ0).mpr hQ
  have hself := Nat.log2_self_le hQ0
  obtain ⟨e, he⟩ : ∃ e, Nat.log2 (N / den) = 52 + e := ⟨Nat.log2 (N / den) - 52, by omega⟩
  rw [he] at hself ⊢
  rw [Nat.add_sub_cancel_left]
  have h2 : den * 2 ^ e * 2 ^ 52 ≤ N := by
    have := (Nat.le_div_iff_mul_le hd).mp hself
    rw [Nat.pow_add] at this
    calc den * 2 ^ e * 2 ^ 52 = 2 ^ 52 * 2 ^ e * den := by
            rw [Nat.mul_comm den, Nat.mul_right_comm, Nat.mul_comm (2 ^ e)]
      _ ≤ N := this
  obtain ⟨b1, b2⟩ := rne_bounds N (den * 2 ^ e) (Nat.mul_pos hd (Nat.two_pow_pos _))
  have h3 : rne N (den * 2 ^ e) * 2 ^ e * den = rne N (den * 2 ^ e) * (den * 2 ^ e) := by
    rw [Nat.mul_assoc, Nat.mul_comm (2 ^ e) den]
  rw [h3]
  generalize rne N (den * 2 ^ e) * (den * 2 ^ e) = P at *
  generalize den * 2 ^ e = G at *
  omega

/-! ### The conversions -/

theorem toDouble_exact (n : BitVec 64) (h0 : 0 < n.toNat) (h : n.toNat < 2 ^ 53) : toDouble n = n.toNat * 2 ^ 64 := by
  have key := round_exact n.toNat 1 (n.toNat * 2 ^ (64 - (Nat.log2 (n.toNat * 2 ^ 64) - 52))) (by decide) (by
    rw [Nat.div_one, Nat.one_mul, Nat.mul_assoc, ← Nat.pow_add]
    congr 2
    have : Nat.log2 (n.toNat * 2 ^ 64) < 117 := (Nat.log2_lt (by omega)).mpr (by omega)
    omega)
  unfold toDouble
  omega

theorem toDouble_bounds (n : BitVec 64) (h0 : 0 < n.toNat) :
    2 ^ 53 * (n.toNat * 2 ^ 64) ≤ 2 ^ 53 * toDouble n + n.toNat * 2 ^ 64 ∧
    2 ^ 53 * toDouble n ≤ 2 ^ 53 * (n.toNat * 2 ^ 64) + n.toNat * 2 ^ 64 := by
  have := round_bounds n.toNat 1 (by decide) (by omega)
  rw [Nat.mul_one] at this
  exact this

theorem toDouble_large (n : BitVec 64) (h : 2 ^ 63 ≤ n.toNat) :
    toDouble n = rne n.toNat (2 ^ 11) * 2 ^ 75 := by
  have hl : Nat.log2 (n.toNat * 2 ^ 64 / 1) = 127 := by
    have hn := n.isLt
    rw [Nat.div_one, Nat.log2_eq_iff (by omega)]
    omega
  unfold toDouble roundDouble
  simp only [hl]
  have : rne (n.toNat * 2 ^ 64) (1 * 2 ^ (127 - 52)) = rne n.toNat (2 ^ 11) := by
    unfold rne
    have e1 : n.toNat * 2 ^ 64 / (1 * 2 ^ (127 - 52)) = n.toNat / 2 ^ 11 := by omega
    have e2 : n.toNat * 2 ^ 64 % (1 * 2 ^ (127 - 52)) = n.toNat % 2 ^ 11 * 2 ^ 64 := by omega
    simp only [e1, e2]
    split <;> split <;> (try split) <;> (try split) <;> omega
  rw [this]

/-- the double quotient by one is the dividend -/
theorem toDouble_fixed (n : BitVec 64) (h0 : 0 < n.toNat) : divDouble (toDouble n) (2 ^ 64) = toDouble n := by
  unfold divDouble
  have hb := toDouble_bounds n h0
  have hn := n.isLt
  have hX0 : toDouble n ≠ 0 := by omega
  have key : ∃ k, toDouble n * 2 ^ 64 = k * (2 ^ 64 * 2 ^ (Nat.log2 (toDouble n * 2 ^ 64 / 2 ^ 64) - 52)) := by
    rw [Nat.mul_div_cancel _ (by decide)]
    obtain ⟨m, e, hm, hme, hle⟩ : ∃ m e, toDouble n = m * 2 ^ e ∧ m ≤ 2 ^ 53 ∧ 2 ^ (52 + e) ≤ toDouble n := by
      refine ⟨rne (n.toNat * 2 ^ 64) (1 * 2 ^ (Nat.log2 (n.toNat * 2 ^ 64 / 1) - 52)),
        Nat.log2 (n.toNat * 2 ^ 64 / 1) - 52, rfl, ?_, ?_⟩
      all_goals
        simp only [Nat.div_one, Nat.one_mul]
        have hN0 : n.toNat * 2 ^ 64 ≠ 0 := by omega
        have hself := Nat.log2_self_le hN0
        have hlt := Nat.lt_log2_self (n := n.toNat * 2 ^ 64)
        have hlog : 52 ≤ Nat.log2 (n.toNat * 2 ^ 64) := (Nat.le_log2 hN0).mpr (by omega)
        obtain ⟨e, he⟩ : ∃ e, Nat.log2 (n.toNat * 2 ^ 64) = 52 + e := ⟨_, (Nat.add_sub_of_le hlog).symm⟩
        rw [he] at hself hlt ⊢
        rw [Nat.add_sub_cancel_left]
      · obtain ⟨_, b2⟩ := rne_bounds (n.toNat * 2 ^ 64) (2 ^ e) (Nat.two_pow_pos _)
        have hlt' : n.toNat * 2 ^ 64 < 2 ^ 53 * 2 ^ e := by
          rw [show 52 + e + 1 = 53 + e by omega, Nat.pow_add] at hlt; exact hlt
        have hpos := Nat.two_pow_pos e
        apply Nat.le_of_lt_succ
        apply Nat.lt_of_mul_lt_mul_right (a := 2 ^ e)
        rw [Nat.succ_mul]
        omega
      · have hdef : toDouble n = rne (n.toNat * 2 ^ 64) (2 ^ e) * 2 ^ e := by
          unfold toDouble roundDouble
          simp only [Nat.div_one, Nat.one_mul, he, Nat.add_sub_cancel_left]
        rw [hdef, Nat.pow_add]
        apply Nat.mul_le_mul_right
        obtain ⟨b1, _⟩ := rne_bounds (n.toNat * 2 ^ 64) (2 ^ e) (Nat.two_pow_pos _)
        rw [Nat.pow_add] at hself
        have hpos := Nat.two_pow_pos e
        apply Nat.le_of_lt_succ
        apply Nat.lt_of_mul_lt_mul_right (a := 2 ^ e)
        have := Nat.succ_mul (rne (n.toNat * 2 ^ 64) (2 ^ e)) (2 ^ e)
        omega
    have hlog : Nat.log2 (toDouble n) - 52 ≤ e ∨ (m = 2 ^ 53 ∧ Nat.log2 (toDouble n) - 52 ≤ e + 1) := by
      have hpos := Nat.two_pow_pos e
      by_cases hmm : m = 2 ^ 53
      · right
        refine ⟨hmm, ?_⟩
        have : Nat.log2 (toDouble n) < 54 + e := (Nat.log2_lt hX0).mpr (by
          rw [hm, hmm, Nat.pow_add]; exact Nat.mul_lt_mul_of_pos_right (by decide) hpos)
        omega
      · left
        have : Nat.log2 (toDouble n) < 53 + e := (Nat.log2_lt hX0).mpr (by
          rw [hm, Nat.pow_add]; exact Nat.mul_lt_mul_of_pos_right (by omega) hpos)
        omega
    rcases hlog with h | ⟨h5, h⟩
    · obtain ⟨d, hd⟩ : ∃ d, e = d + (Nat.log2 (toDouble n) - 52) := ⟨_, (Nat.sub_add_cancel h).symm⟩
      refine ⟨m * 2 ^ d, ?_⟩
      generalize Nat.log2 (toDouble n) - 52 = t at *
      rw [hm, hd, Nat.pow_add]
      simp only [Nat.mul_assoc, Nat.mul_comm, Nat.mul_left_comm]
    · obtain ⟨d, hd⟩ : ∃ d, e + 1 = d + (Nat.log2 (toDouble n) - 52) := ⟨_, (Nat.sub_add_cancel h).symm⟩
      refine ⟨2 ^ 52 * 2 ^ d, ?_⟩
      generalize Nat.log2 (toDouble n) - 52 = t at *
      have : m * 2 ^ e = 2 ^ 52 * (2 ^ d * 2 ^ t) := by
        rw [← Nat.pow_add, ← hd, h5, show (2 : Nat) ^ (e + 1) = 2 ^ e * 2 from rfl, Nat.mul_comm (2 ^ e) 2,
          ← Nat.mul_assoc]
      rw [hm, this]
      simp only [Nat.mul_assoc, Nat.mul_comm, Nat.mul_left_comm]
  obtain ⟨k, hk⟩ := key
  have := round_exact (toDouble n) (2 ^ 64) k (by decide) hk
  omega

theorem ceil_eq {D c : Nat} (hc : 0 < c) (h1 : (c - 1) * 2 ^ 64 < D) (h2 : D ≤ c * 2 ^ 64) : ceilDouble D = c := by
  unfold ceilDouble
  omega

/-- the quotient of `tasks` by `workers`, rounded and rounded up -/
theorem ceil_small (n w : Nat) (hn0 : 0 < n) (hn : n < 2 ^ 42) (hw0 : 0 < w) (hw : w ≤ 1024) :
    ceilDouble (divDouble (n * 2 ^ 64) (w * 2 ^ 64)) = ceilDiv n w := by
  have hb := round_bounds (n * 2 ^ 64) (w * 2 ^ 64) (by omega) (by omega)
  unfold divDouble
  obtain ⟨c, hc⟩ : ∃ c, ceilDiv n w = c := ⟨_, rfl⟩
  have hq := Nat.div_add_mod (n + w - 1) w
  have hr := Nat.mod_lt (n + w - 1) hw0
  have hc' : (n + w - 1) / w = c := hc
  rw [hc'] at hq
  have hc0 : 0 < c := by rw [← hc']; exact Nat.div_pos (by omega) hw0
  obtain ⟨c', rfl⟩ : ∃ c', c = c' + 1 := ⟨c - 1, by omega⟩
  rw [Nat.mul_succ] at hq
  rw [hc]
  have hD : roundDouble (n * 2 ^ 64) (w * 2 ^ 64) * (w * 2 ^ 64) =
      roundDouble (n * 2 ^ 64) (w * 2 ^ 64) * w * 2 ^ 64 := by rw [Nat.mul_assoc]
  by_cases hex : n = w * c' + w
  · have hdiv : n * 2 ^ 64 * 2 ^ 64 / (w * 2 ^ 64) = (c' + 1) * 2 ^ 64 := by
      rw [hex, ← Nat.mul_succ]
      rw [Nat.mul_div_mul_right _ _ (by decide), Nat.mul_assoc]
      exact Nat.mul_div_cancel_left _ hw0
    have hle : c' + 1 ≤ n := by
      rw [hex, ← Nat.mul_succ]
      exact Nat.le_mul_of_pos_left _ hw0
    have hx := round_exact (n * 2 ^ 64) (w * 2 ^ 64)
      ((c' + 1) * 2 ^ (64 - (Nat.log2 ((c' + 1) * 2 ^ 64) - 52))) (by omega) (by
        rw [hdiv]
        have hlog : Nat.log2 ((c' + 1) * 2 ^ 64) < 106 := (Nat.log2_lt (by omega)).mpr (by omega)
        have htl : Nat.log2 ((c' + 1) * 2 ^ 64) - 52 ≤ 64 := by omega
        generalize Nat.log2 ((c' + 1) * 2 ^ 64) - 52 = t at htl ⊢
        have ht : (2 : Nat) ^ (64 - t) * 2 ^ t = 2 ^ 64 := by rw [← Nat.pow_add]; congr 1; omega
        rw [hex, ← Nat.mul_succ]
        calc w * (c' + 1) * 2 ^ 64 * 2 ^ 64 = (c' + 1) * (w * 2 ^ 64) * 2 ^ 64 := by
              simp only [Nat.mul_assoc, Nat.mul_comm, Nat.mul_left_comm]
          _ = (c' + 1) * (w * 2 ^ 64) * (2 ^ (64 - t) * 2 ^ t) := by rw [ht]
          _ = _ := by simp only [Nat.mul_assoc, Nat.mul_comm, Nat.mul_left_comm])
    have hDv : roundDouble (n * 2 ^ 64) (w * 2 ^ 64) = (c' + 1) * 2 ^ 64 := by
      have h1 : roundDouble (n * 2 ^ 64) (w * 2 ^ 64) * (w * 2 ^ 64) = (c' + 1) * 2 ^ 64 * (w * 2 ^ 64) := by
        rw [hx, hex, ← Nat.mul_succ]
        simp only [Nat.mul_assoc, Nat.mul_comm, Nat.mul_left_comm]
      exact Nat.eq_of_mul_eq_mul_right (by omega) h1
    exact ceil_eq (by omega) (by omega) (by omega)
  · rw [hD] at hb
    apply ceil_eq (by omega)
    · apply Nat.lt_of_mul_lt_mul_right (a := w)
      rw [Nat.add_sub_cancel]
      have : c' * 2 ^ 64 * w = w * c' * 2 ^ 64 := by rw [Nat.mul_right_comm, Nat.mul_comm c' w]
      omega
    · apply Nat.le_of_lt
      apply Nat.lt_of_mul_lt_mul_right (a := w)
      have : (c' + 1) * 2 ^ 64 * w = (w * c' + w) * 2 ^ 64 := by
        rw [Nat.mul_right_comm, Nat.mul_comm (c' + 1) w]; rfl
      omega

/-- a large request: the quotient exceeds the most a queue may hold, and fits unless it is all of the range -/
theorem ceil_large (n : BitVec 64) (w : Nat) (hn : 2 ^ 42 ≤ n.toNat) (hw0 : 0 < w) (hw : w ≤ 1024) :
    4194304 ≤ ceilDouble (divDouble (toDouble n) (w * 2 ^ 64)) ∧
    (2 ≤ w → ceilDouble (divDouble (toDouble n) (w * 2 ^ 64)) < 2 ^ 64) := by
  have hb1 := toDouble_bounds n (by omega)
  have hX : 2 ^ 105 ≤ toDouble n := by omega
  have hb := round_bounds (toDouble n) (w * 2 ^ 64) (by omega) (by omega)
  unfold divDouble
  rw [← Nat.mul_assoc (roundDouble _ _)] at hb
  have hlt := n.isLt
  generalize toDouble n = X at *
  generalize roundDouble X (w * 2 ^ 64) = D at *
  constructor
  · have : 4194304 * 2 ^ 64 * w ≤ D * w := by omega
    have := Nat.le_of_mul_le_mul_right this hw0
    unfold ceilDouble; omega
  · intro h2
    have h3 : D * w < 2 ^ 127 * 2 + 2 ^ 76 := by omega
    have h4 : D * 2 ≤ D * w := Nat.mul_le_mul_left D h2
    unfold ceilDouble; omega

/-- one worker: defined exactly if the request is not within 1024 of 2^64 -/
theorem ceil_one (n : BitVec 64) (hn : 2 ^ 42 ≤ n.toNat) :
    ceilDouble (divDouble (toDouble n) (2 ^ 64)) < 2 ^ 64 ↔ n.toNat < 2 ^ 64 - 1024 := by
  rw [toDouble_fixed n (by omega)]
  have hlt := n.isLt
  by_cases h : 2 ^ 63 ≤ n.toNat
  · rw [toDouble_large n h]
    unfold ceilDouble
    have : rne n.toNat (2 ^ 11) ≤ 2 ^ 53 - 1 ↔ n.toNat < 2 ^ 64 - 1024 := by
      unfold rne
      simp only
      split
      · omega
      · split
        · omega
        · omega
    omega
  · have := toDouble_bounds n (by omega)
    unfold ceilDouble
    omega

theorem calcQueueSize_spec (w n : BitVec 64) (hw0 : 0 < w.toNat) (hw : w.toNat ≤ 1024) :
    (¬ (w.toNat = 1 ∧ 2 ^ 64 - 1024 ≤ n.toNat) → ∃ q, calcQueueSize w n = some q ∧
      q.toNat = min (ceilDiv (if n.toNat = 0 then 1024 else n.toNat) w.toNat) (4194304 / w.toNat)) ∧
    (w.toNat = 1 ∧ 2 ^ 64 - 1024 ≤ n.toNat → calcQueueSize w n = none) := by
  have hwn : w ≠ 0#64 := by intro h; rw [h] at hw0; simp at hw0
  have hY : toDouble w = w.toNat * 2 ^ 64 := toDouble_exact w hw0 (by omega)
  obtain ⟨m, hm, hmv, hm0⟩ : ∃ m : BitVec 64, (if n = 0#64 then (64#64 * 1024#64) / 64#64 else n) = m ∧
      m.toNat = (if n.toNat = 0 then 1024 else n.toNat) ∧ 0 < m.toNat := by
    by_cases h : n = 0#64
    · exact ⟨1024#64, by rw [if_pos h]; rfl, by rw [h]; rfl, by decide⟩
    · have h0 : n.toNat ≠ 0 := fun h0 => h (BitVec.eq_of_toNat_eq h0)
      exact ⟨n, by rw [if_neg h], by rw [if_neg h0], by omega⟩
  have hM : (256#64 * 1024#64 * 1024#64) / 64#64 = 4194304#64 := by decide
  have hMw : (4194304#64 / w).toNat = 4194304 / w.toNat := by rw [BitVec.toNat_udiv]; rfl
  have hdef : calcQueueSize w n = (match toSize (ceilDouble (divDouble (toDouble m) (w.toNat * 2 ^ 64))) with
      | none => none
      | some s => some (if s < 4194304#64 / w then s else 4194304#64 / w)) := by
    unfold calcQueueSize
    simp only [hM]
    rw [if_neg hwn, hm, hY]
    rfl
  have hfin : ∀ C, ceilDouble (divDouble (toDouble m) (w.toNat * 2 ^ 64)) = C → C < 2 ^ 64 →
      ∃ q, calcQueueSize w n = some q ∧ q.toNat = min C (4194304 / w.toNat) := by
    intro C hC hlt
    rw [hdef, hC, toSize, if_pos hlt]
    refine ⟨_, rfl, ?_⟩
    have : (BitVec.ofNat 64 C).toNat = C := by rw [BitVec.toNat_ofNat]; omega
    rw [apply_ite BitVec.toNat]
    simp only [BitVec.lt_def, this, hMw]
    split <;> omega
  rw [← hmv]
  by_cases hsmall : m.toNat < 2 ^ 42
  · have hC : ceilDouble (divDouble (toDouble m) (w.toNat * 2 ^ 64)) = ceilDiv m.toNat w.toNat := by
      rw [toDouble_exact m hm0 (by omega)]
      exact ceil_small _ _ hm0 hsmall hw0 hw
    have hlt : ceilDiv m.toNat w.toNat < 2 ^ 64 := by
      unfold ceilDiv
      have := Nat.div_le_self (m.toNat + w.toNat - 1) w.toNat
      omega
    refine ⟨fun _ => hfin _ hC hlt, fun h => ?_⟩
    split at hmv <;> omega
  · have hn' : m.toNat = n.toNat := by split at hmv <;> omega
    obtain ⟨h1, h2⟩ := ceil_large m w.toNat (by omega) hw0 hw
    have hmin : min (ceilDiv m.toNat w.toNat) (4194304 / w.toNat) = 4194304 / w.toNat := by
      have hle : 4194304 / w.toNat ≤ 4194304 := Nat.div_le_self _ _
      have : 4194304 ≤ ceilDiv m.toNat w.toNat := by
        unfold ceilDiv
        rw [Nat.le_div_iff_mul_le hw0]
        omega
      exact Nat.min_eq_right (Nat.le_trans hle this)
    have hle : 4194304 / w.toNat ≤ 4194304 := Nat.div_le_self _ _
    constructor
    · intro hnot
      have hlt : ceilDouble (divDouble (toDouble m) (w.toNat * 2 ^ 64)) < 2 ^ 64 := by
        by_cases hw2 : 2 ≤ w.toNat
        · exact h2 hw2
        · have hw1 : w.toNat = 1 := by omega
          rw [hw1, Nat.one_mul]
          exact (ceil_one m (by omega)).mpr (by omega)
      obtain ⟨q, hq1, hq2⟩ := hfin _ rfl hlt
      exact ⟨q, hq1, (hq2.trans (Nat.min_eq_right (Nat.le_trans hle h1))).trans hmin.symm⟩
    · rintro ⟨hw1, hbig⟩
      rw [hdef, hw1, Nat.one_mul, toSize, if_neg]
      rw [ceil_one m (by omega)]
      omega

theorem calcWorkers_spec (hwc : BitVec 32) (n : BitVec 64) :
    (calcWorkers hwc n).toNat =
      min (if n.toNat = 0 then max hwc.toNat 1 else n.toNat) (min (max hwc.toNat 1 * 64) 1024) := by
  have h32 := hwc.isLt
  have hn : (n ≠ 0#64) ↔ n.toNat ≠ 0 := by rw [Ne, ← BitVec.toNat_inj]; rfl
  have hc : (if hwc.setWidth 64 < 1#64 then 1#64 else hwc.setWidth 64).toNat = max hwc.toNat 1 := by
    rw [apply_ite BitVec.toNat]
    simp only [BitVec.lt_def, BitVec.toNat_setWidth, BitVec.toNat_ofNat]
    split <;> omega
  unfold calcWorkers
  simp only
  generalize (if hwc.setWidth 64 < 1#64 then 1#64 else hwc.setWidth 64) = c at *
  have hc2 : (c * 64#64).toNat = c.toNat * 64 := by rw [BitVec.toNat_mul]; simp only [BitVec.toNat_ofNat]; omega
  have hmost : (if c * 64#64 < 1024#64 then c * 64#64 else 1024#64).toNat = min (max hwc.toNat 1 * 64) 1024 := by
    rw [apply_ite BitVec.toNat]
    simp only [BitVec.lt_def, hc2, hc, BitVec.toNat_ofNat]
    split <;> omega
  generalize (if c * 64#64 < 1024#64 then c * 64#64 else 1024#64) = mo at *
  have hwant : (if n ≠ 0#64 then n else c).toNat = if n.toNat = 0 then max hwc.toNat 1 else n.toNat := by
    rw [apply_ite BitVec.toNat]
    simp only [hn, hc]
    by_cases h : n.toNat = 0 <;> simp [h]
  generalize (if n ≠ 0#64 then n else c) = wa at *
  rw [apply_ite BitVec.toNat]
  simp only [BitVec.lt_def, hwant, hmost]
  generalize (if n.toNat = 0 then max hwc.toNat 1 else n.toNat) = x
  generalize min (max hwc.toNat 1 * 64) 1024 = y
  split <;> omega

/-! ### Layout -/

theorem align64 (x : BitVec 64) (h : x.toNat < 2 ^ 63) :
    ∃ r, applyAlignment x 64#64 = some r ∧ x.toNat ≤ r.toNat ∧ r.toNat < x.toNat + 64 ∧ r.toNat % 64 = 0 := by
  obtain ⟨r, h1, h2⟩ := Verif.Proofs.applyAlignment_toNat x 64#64 (k := 6) (by decide)
  refine ⟨r, h1, ?_⟩
  simp only [Nat.max_self] at h2
  omega

theorem mul_small (a b : BitVec 64) (h : a.toNat * b.toNat < 2 ^ 64) : (a * b).toNat = a.toNat * b.toNat := by
  rw [BitVec.toNat_mul, Nat.mod_eq_of_lt h]

theorem layout_spec (sS sQ sW w t : BitVec 64) (hS : sS.toNat < 2 ^ 20) (hQ : sQ.toNat < 2 ^ 20)
    (hW : sW.toNat < 2 ^ 20) (hw : w.toNat ≤ 1024) (ht : t.toNat ≤ 4194304) :
    ∃ l, layout sS sQ sW w t = some l ∧ sS.toNat ≤ l.queuesStart.toNat ∧
      l.queuesEnd.toNat = l.queuesStart.toNat + sQ.toNat * w.toNat ∧
      l.queuesEnd.toNat ≤ l.workersStart.toNat ∧
      l.workersEnd.toNat = l.workersStart.toNat + sW.toNat * w.toNat ∧
      l.workersEnd.toNat ≤ l.tasksStart.toNat ∧
      l.tasksEnd.toNat = l.tasksStart.toNat + 64 * t.toNat ∧ l.total = l.tasksEnd ∧
      l.queuesStart.toNat % 64 = 0 ∧ l.workersStart.toNat % 64 = 0 ∧ l.tasksStart.toNat % 64 = 0 ∧
      l.total.toNat < 2 ^ 32 := by
  have hqw : sQ.toNat * w.toNat < 2 ^ 20 * 1025 := Nat.mul_lt_mul'' hQ (by omega)
  have hww : sW.toNat * w.toNat < 2 ^ 20 * 1025 := Nat.mul_lt_mul'' hW (by omega)
  obtain ⟨qs, q1, q2, q3, q4⟩ := align64 (0#64 + sS) (by rw [BitVec.zero_add]; omega)
  rw [BitVec.zero_add] at q2 q3
  have hqe : (qs + sQ * w).toNat = qs.toNat + sQ.toNat * w.toNat := by
    rw [BitVec.toNat_add, mul_small _ _ (by omega)]; omega
  obtain ⟨ws, w1, w2, w3, w4⟩ := align64 (qs + sQ * w) (by omega)
  have hwe : (ws + sW * w).toNat = ws.toNat + sW.toNat * w.toNat := by
    rw [BitVec.toNat_add, mul_small _ _ (by omega)]; omega
  obtain ⟨ts, t1, t2, t3, t4⟩ := align64 (ws + sW * w) (by omega)
  have hte : (ts + 64#64 * t).toNat = ts.toNat + 64 * t.toNat := by
    rw [BitVec.toNat_add, mul_small _ _ (by simp only [BitVec.toNat_ofNat]; omega)]
    simp only [BitVec.toNat_ofNat]; omega
  refine ⟨⟨qs, qs + sQ * w, ws, ws + sW * w, ts, ts + 64#64 * t, ts + 64#64 * t - 0#64⟩, ?_, q2, hqe, by omega, hwe,
    by omega, hte, by simp, q4, w4, t4, ?_⟩
  · unfold layout; rw [q1]; simp only; rw [w1]; simp only; rw [t1]
  · rw [BitVec.sub_zero, hte]; omega

end Verif.Proofs.PoolSizing
