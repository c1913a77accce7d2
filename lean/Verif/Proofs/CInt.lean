import Verif.Model.CInt
/-! Lemmas about C++ integer types. -/
namespace Verif.Proofs.CInt
open Verif.Spec.CInt Verif.Model.CInt

theorem two_pow_pred {n : Nat} (h : 0 < n) : (2 : Int) ^ n = 2 * 2 ^ (n - 1) := by
  obtain ⟨k, rfl⟩ : ∃ k, n = k + 1 := ⟨n - 1, by omega⟩
  simp only [Nat.add_sub_cancel]
  rw [Int.pow_succ]; omega

theorem two_pow_pos (n : Nat) : (0 : Int) < 2 ^ n := Int.pow_pos (by decide)

theorem two_pow_mono {a b : Nat} (h : a ≤ b) : (2 : Int) ^ a ≤ 2 ^ b := by
  have := Nat.pow_le_pow_right (n := 2) (by decide) h
  exact_mod_cast this

/-- converting a value the type has does not change it -/
theorem conv_has {t : Ty} (hb : 0 < t.bits) {v : Int} (h : t.Has v) : conv t v = v := by
  obtain ⟨h1, h2⟩ := h
  unfold Ty.lo at h1
  unfold Ty.hi at h2
  unfold conv
  have e := two_pow_pred hb
  have p := two_pow_pos (t.bits - 1)
  cases hs : t.signed with
  | false =>
    simp only [hs, Bool.false_eq_true, if_false, false_and] at *
    exact Int.emod_eq_of_lt h1 (by omega)
  | true =>
    simp only [hs, if_true, true_and] at *
    rcases (by omega : v < 0 ∨ v ≥ 0) with hv | hv
    · have hm : v % 2 ^ t.bits = v + 2 ^ t.bits := by
        rw [← Int.add_emod_right]
        exact Int.emod_eq_of_lt (by omega) (by omega)
      rw [hm, if_pos (by omega)]; omega
    · have hm : v % 2 ^ t.bits = v := Int.emod_eq_of_lt hv (by omega)
      rw [hm, if_neg (by omega)]

/-- converting a negative value to an unsigned type -/
theorem conv_neg {t : Ty} (hs : t.signed = false) {v : Int} (h : v < 0) (h2 : -(2 ^ t.bits) ≤ v) :
    conv t v = v + 2 ^ t.bits := by
  unfold conv
  simp only [hs, Bool.false_eq_true, false_and, if_false]
  rw [← Int.add_emod_right]
  exact Int.emod_eq_of_lt (by omega) (by omega)

theorem common_bits {a b : Ty} (ha : 0 < a.bits) (hb : 0 < b.bits) : 0 < (common a b).bits := by
  have key : ∀ t : Ty, 0 < t.bits → 0 < (promote t).bits := by
    intro t ht
    unfold promote
    split
    · decide
    · exact ht
  have ka := key a ha
  have kb := key b hb
  unfold common arith
  generalize promote a = p at *
  generalize promote b = q at *
  dsimp only
  (repeat' split) <;> assumption

/-- the common type never loses large values -/
theorem common_hi {a b : Ty} (ha : 0 < a.bits) (hb : 0 < b.bits) : a.hi ≤ (common a b).hi ∧ b.hi ≤ (common a b).hi := by
  have key : ∀ t : Ty, 0 < t.bits → t.hi ≤ (promote t).hi ∧ 0 < (promote t).bits := by
    intro t ht
    unfold promote
    split
    · rename_i h
      refine ⟨?_, by decide⟩
      unfold Ty.hi
      have h1 : (2 : Int) ^ t.bits ≤ 2 ^ 31 := two_pow_mono (by omega)
      have h2 : (2 : Int) ^ (t.bits - 1) ≤ 2 ^ 31 := two_pow_mono (by omega)
      simp only [if_true]
      split <;> simp only [Nat.add_one_sub_one] at * <;> omega
    · exact ⟨Int.le_refl _, ht⟩
  have key2 : ∀ p q : Ty, 0 < p.bits → 0 < q.bits → p.bits ≤ q.bits → (p.signed = q.signed ∨ q.signed = false ∨ p.bits < q.bits) →
      p.hi ≤ q.hi := by
    intro p q hp hq hle hs
    unfold Ty.hi
    have h1 := two_pow_mono hle
    have h2 : (2 : Int) ^ (p.bits - 1) ≤ 2 ^ (q.bits - 1) := two_pow_mono (by omega)
    have h3 := two_pow_pred hp
    have h4 := two_pow_pred hq
    have h5 := two_pow_pos (p.bits - 1)
    cases hps : p.signed <;> cases hqs : q.signed <;> simp only [Bool.false_eq_true, if_true, if_false]
    · omega
    · have hlt : p.bits < q.bits := by simpa [hps, hqs] using hs
      have : (2 : Int) ^ p.bits ≤ 2 ^ (q.bits - 1) := two_pow_mono (by omega)
      omega
    · omega
    · omega
  unfold common
  split
  · rename_i h; subst h; exact ⟨Int.le_refl _, Int.le_refl _⟩
  · obtain ⟨ka, pa⟩ := key a ha
    obtain ⟨kb, pb⟩ := key b hb
    unfold arith
    generalize promote a = p at *
    generalize promote b = q at *
    dsimp only
    split
    · rename_i hs
      split
      · exact ⟨Int.le_trans ka (key2 p q pa pb (by omega) (.inl hs)), kb⟩
      · exact ⟨ka, Int.le_trans kb (key2 q p pb pa (by omega) (.inl hs.symm))⟩
    · rename_i hs
      cases hps : p.signed <;> cases hqs : q.signed <;> simp only [hps, hqs, not_true_eq_false, reduceCtorEq, not_false_eq_true] at hs <;>
        simp only [Bool.false_eq_true, if_true, if_false]
      · split
        · exact ⟨ka, Int.le_trans kb (key2 q p pb pa (by omega) (.inr (.inl hps)))⟩
        · exact ⟨Int.le_trans ka (key2 p q pa pb (by omega) (.inr (.inr (by omega)))), kb⟩
      · split
        · exact ⟨Int.le_trans ka (key2 p q pa pb (by omega) (.inr (.inl hqs))), kb⟩
        · exact ⟨ka, Int.le_trans kb (key2 q p pb pa (by omega) (.inr (.inr (by omega))))⟩

theorem hi_nonneg (t : Ty) : 0 ≤ t.hi := by
  unfold Ty.hi
  have := two_pow_pos (t.bits - 1)
  have := two_pow_pos t.bits
  split <;> omega

theorem has_nonneg {t : Ty} {v : Int} (h0 : 0 ≤ v) (h : v ≤ t.hi) : t.Has v := by
  refine ⟨?_, h⟩
  unfold Ty.lo
  have := two_pow_pos (t.bits - 1)
  split <;> omega

/-- the common type is signed only if it can hold the values of both -/
theorem common_lo {a b : Ty} (ha : 0 < a.bits) (hb : 0 < b.bits) (hs : (common a b).signed = true) :
    (common a b).lo ≤ a.lo ∧ (common a b).lo ≤ b.lo := by
  have key : ∀ t : Ty, 0 < t.bits → (promote t).lo ≤ t.lo ∧ 0 < (promote t).bits := by
    intro t ht
    unfold promote
    split
    · rename_i h
      refine ⟨?_, by decide⟩
      unfold Ty.lo
      have h2 : (2 : Int) ^ (t.bits - 1) ≤ 2 ^ 31 := two_pow_mono (by omega)
      simp only [if_true]
      split <;> simp only [Nat.add_one_sub_one] at * <;> omega
    · exact ⟨Int.le_refl _, ht⟩
  have key2 : ∀ p q : Ty, 0 < q.bits → p.bits ≤ q.bits → q.signed = true → q.lo ≤ p.lo := by
    intro p q hq hle hs
    unfold Ty.lo
    have h2 : (2 : Int) ^ (p.bits - 1) ≤ 2 ^ (q.bits - 1) := two_pow_mono (by omega)
    have := two_pow_pos (q.bits - 1)
    simp only [hs, if_true]
    split <;> omega
  revert hs
  unfold common
  split
  · rename_i h; subst h; exact fun _ => ⟨Int.le_refl _, Int.le_refl _⟩
  · obtain ⟨ka, pa⟩ := key a ha
    obtain ⟨kb, pb⟩ := key b hb
    unfold arith
    generalize promote a = p at *
    generalize promote b = q at *
    dsimp only
    split
    · rename_i hs
      split
      · exact fun h => ⟨Int.le_trans (key2 p q pb (by omega) h) ka, kb⟩
      · exact fun h => ⟨ka, Int.le_trans (key2 q p pa (by omega) h) kb⟩
    · rename_i hs
      cases hps : p.signed <;> cases hqs : q.signed <;> simp only [hps, hqs, not_true_eq_false, reduceCtorEq, not_false_eq_true] at hs <;>
        simp only [Bool.false_eq_true, if_true, if_false]
      · split
        · simp [hps]
        · exact fun _ => ⟨Int.le_trans (key2 p q pb (by omega) hqs) ka, kb⟩
      · split
        · simp [hqs]
        · exact fun _ => ⟨ka, Int.le_trans (key2 q p pa (by omega) hps) kb⟩

end Verif.Proofs.CInt
