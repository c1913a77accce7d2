import Verif.Model.Approx
import Verif.Proofs.FloatLength

/-! # Lemmas about approximate equality -/

namespace Verif.Proofs.Approx

open Verif.Spec.CInt Verif.Spec.Float Verif.Spec.SmallFloat Verif.Spec.IeeeArith Verif.Spec.FloatFormat Verif.Spec.Closeness Verif.Model.VectorStore
  Verif.Model.Approx Verif.Model.FloatVector Verif.Proofs.Float Verif.Proofs.VectorStore Verif.Proofs.FloatVector Verif.Proofs.Kahan

theorem rd_mono {f : Format} (hp : 1 ≤ f.p) {a b : ℚ} (ha : 0 ≤ a) (h : a ≤ b) : rd f a ≤ rd f b := by
  have hb := ha.trans h
  unfold rd rounded
  rw [abs_of_nonneg ha, abs_of_nonneg hb]
  have wp : (0 : ℚ) < 2 ^ (f.emin - f.p + 1) := by positivity
  have e : ((2 ^ (f.p - 1) : ℤ) : ℚ) * 2 ^ (f.emin - f.p + 1) = 2 ^ f.emin := by
    push_cast
    rw [← zpow_natCast, ← zpow_add₀ (by norm_num)]
    congr 1
    omega
  split_ifs with h1 h2 h2
  · apply mul_le_mul_of_nonneg_right _ wp.le
    exact_mod_cast roundEven_mono (div_le_div_of_nonneg_right h wp.le)
  · refine le_trans (b := (2 : ℚ) ^ f.emin) ?_ ?_
    · rw [← e]
      apply mul_le_mul_of_nonneg_right _ wp.le
      have : roundEven (a / 2 ^ (f.emin - f.p + 1)) ≤ 2 ^ (f.p - 1) := by
        apply roundEven_le
        rw [div_le_iff₀ wp, e]
        exact h1.le
      exact_mod_cast this
    · have := rnd_mono f.p hp (not_lt.1 h2)
      have e1 := rnd_exact f.p hp 1 f.emin (by rw [abs_one]; exact one_le_pow₀ (by norm_num))
      rw [Int.cast_one, one_mul] at e1
      rwa [e1] at this
  · exact absurd (h.trans_lt h2) h1
  · exact rnd_mono f.p hp h

theorem value_sub {x y : Number} {X Y : ℚ} (hx : value x = some X) (hy : value y = some Y) : value (x.sub y) = some (X - Y) := by
  have : value y.negate = some (-Y) := by
    cases y with
    | nan => simp [value] at hy
    | inf s => simp [value] at hy
    | fin s a =>
      simp only [value, Option.some.injEq] at hy
      subst hy
      cases s <;> simp [Number.negate, value, signed]
  rw [sub_eq_add_neg]
  exact value_add hx this

theorem sub_mag {x y : Number} {t : Bool} {m : ℚ} (h : x.sub y = .fin t m) : 0 ≤ m := by
  unfold Number.sub at h
  cases x <;> cases hy : y.negate <;> rw [hy] at h <;> simp only [Number.add, reduceCtorEq] at h
  · split_ifs at h
  · split_ifs at h <;> simp only [Number.fin.injEq] at h <;> rw [← h.2]
    exact abs_nonneg _

/-- The values of a format. -/
theorem has_R {f : Format} {x : Number} {X : ℚ} (hx : f.Has x) (hX : value x = some X) : R f X ∧ |X| ≤ f.greatest := by
  have h := fl_has hx hX
  refine ⟨h.choose_spec.choose_spec.2.2.2, ?_⟩
  cases x with
  | nan => simp [value] at hX
  | inf s => simp [value] at hX
  | fin s a =>
    obtain ⟨⟨m, k, -, -, rfl⟩, hg⟩ := hx
    simp only [value, Option.some.injEq] at hX
    subst hX
    have : (0 : ℚ) ≤ m * 2 ^ k := by positivity
    cases s <;> simp [signed, abs_of_nonneg this, hg]

/-- The test of one pair of scalars, in the format of the computation. -/
def test (g : Format) (eps a b : Number) : Bool := Model.Kahan.less (Model.Kahan.abs (Op.sub.eval g b a)) eps

theorem near_eq (f : Format) (eps a b : Number) : near f eps a b = test (promoteSmall f) eps a b := rfl

set_option linter.unusedSimpArgs false in
theorem test_sound {g : Format} (hp : 1 ≤ g.p) {eps a b : Number} (he : g.Has eps) (ht : test g eps a b = true) : Close eps a b := by
  have hfin : ∃ A B, value a = some A ∧ value b = some B := by
    cases a with
    | nan => cases b <;> simp [test, Op.eval, Number.sub, Number.negate, Number.add, Format.round, Number.round, Model.Kahan.abs, Model.Kahan.less] at ht
    | inf s =>
      exfalso
      cases b with
      | nan => simp [test, Op.eval, Number.sub, Number.negate, Number.add, Format.round, Number.round, Model.Kahan.abs, Model.Kahan.less] at ht
      | inf t =>
        cases eps <;> cases s <;> cases t <;>
          simp [test, Op.eval, Number.sub, Number.negate, Number.add, Format.round, Number.round, Model.Kahan.abs, Model.Kahan.less] at ht
      | fin t y =>
        cases eps <;> simp [test, Op.eval, Number.sub, Number.negate, Number.add, Format.round, Number.round, Model.Kahan.abs, Model.Kahan.less] at ht
    | fin s x =>
      cases b with
      | nan => simp [test, Op.eval, Number.sub, Number.negate, Number.add, Format.round, Number.round, Model.Kahan.abs, Model.Kahan.less] at ht
      | inf t =>
        cases eps <;> simp [test, Op.eval, Number.sub, Number.negate, Number.add, Format.round, Number.round, Model.Kahan.abs, Model.Kahan.less] at ht
      | fin t y => exact ⟨_, _, rfl, rfl⟩
  obtain ⟨A, B, hA, hB⟩ := hfin
  refine ⟨A, B, hA, hB, ?_⟩
  cases eps with
  | nan => exfalso; unfold test at ht; cases h : Model.Kahan.abs (Op.sub.eval g b a) <;> rw [h] at ht <;> simp [Model.Kahan.less] at ht
  | inf s =>
    cases s
    · exact .inl rfl
    · exfalso
      unfold test at ht
      cases h : Op.sub.eval g b a <;> rw [h] at ht <;> simp [Model.Kahan.abs, Model.Kahan.less] at ht
  | fin s e =>
    right
    refine ⟨signed s e, rfl, ?_⟩
    have hd := value_sub hB hA
    by_contra hc
    push Not at hc
    have hE := has_R he rfl
    unfold test Op.eval at ht
    cases hs : b.sub a with
    | nan => rw [hs] at hd; simp [value] at hd
    | inf t => rw [hs] at hd; simp [value] at hd
    | fin t y =>
      rw [hs] at hd ht
      simp only [value, Option.some.injEq] at hd
      simp only [Format.round, Number.round] at ht
      split_ifs at ht with hov
      · simp [Model.Kahan.abs, Model.Kahan.less] at ht
      · simp only [Model.Kahan.abs, Model.Kahan.less, decide_eq_true_eq] at ht
        have hy : |B - A| = |y| := by rw [← hd]; cases t <;> simp [signed]
        rw [hy] at hc
        have h2 : rd g |y| < signed s e := by
          rw [abs_of_nonneg (sub_mag hs)]
          simpa [signed, rd] using ht
        rcases le_or_gt 0 (signed s e) with h0 | h0
        · have := rd_mono hp h0 hc
          rw [rd_R hp hE.1] at this
          linarith
        · have := rd_nonneg hp (f := g) (abs_nonneg y)
          linarith

theorem test_complete {g : Format} {eps a b : Number} (ha : g.Has a) (hb : g.Has b) (he : g.Has eps) (h : Clear g.u eps a b) :
    test g eps a b = true := by
  obtain ⟨A, B, E, hA, hB, hE, hc⟩ := h
  have hm : Mult g (B - A) := by
    rw [sub_eq_add_neg]
    refine mult_add g (has_mult g hb hB) ?_
    obtain ⟨n, hn⟩ := has_mult g ha hA
    exact ⟨-n, by rw [hn]; push_cast; ring⟩
  have h1 := err_mult g hm
  have h2 : |rd g (B - A)| ≤ |B - A| * (1 + g.u) := by
    have := abs_add_le (B - A) (rd g (B - A) - (B - A))
    rw [add_sub_cancel] at this
    linarith
  have hE2 := (has_R he hE).2
  have hE3 := le_abs_self E
  exact FloatLength.abs_less (value_round g (value_sub hB hA) (by linarith)) hE (by linarith)

/-- A format within another. -/
theorem has_within {f g : Format} (h : Within f g) {x : Number} (hx : f.Has x) : g.Has x := by
  cases x with
  | nan => trivial
  | inf s => trivial
  | fin s a =>
    obtain ⟨⟨m, k, hm, hk, rfl⟩, hg⟩ := hx
    exact ⟨⟨m, k, hm.trans_le (pow_le_pow_right₀ (by norm_num) h.1), by have := h.2.1; omega, rfl⟩, hg.trans h.2.2⟩

theorem round_has {f : Format} (hp : 1 ≤ f.p) {x : Number} (hx : f.Has x) : f.round x = x := by
  cases x with
  | nan => rfl
  | inf s => rfl
  | fin s a =>
    obtain ⟨⟨m, k, hm, hk, rfl⟩, hg⟩ := hx
    have := rd_exact f hp m k (by rw [Nat.abs_cast]; exact_mod_cast hm.le) hk
    simp only [Format.round, Number.round]
    rw [show rounded f.p f.emin (m * 2 ^ k) = m * 2 ^ k by exact_mod_cast this, if_neg (not_lt.2 hg)]

theorem all_iff {α β : Type} {n : ℕ} (f : α → β → Bool) (v : Store α n) (w : Store β n) :
    all f v w = true ↔ ∀ p ∈ (parts v).zip (parts w), f p.1 p.2 = true := by
  rw [all_parts, List.all_eq_true, List.zip]
  simp only [id]
  constructor
  · intro h p hp
    apply h
    rw [List.mem_iff_getElem] at hp ⊢
    obtain ⟨i, hi, rfl⟩ := hp
    exact ⟨i, by simpa using hi, by simp⟩
  · intro h b hb
    rw [List.mem_iff_getElem] at hb
    obtain ⟨i, hi, rfl⟩ := hb
    have := h ((List.zipWith Prod.mk (parts v) (parts w))[i]'(by simpa using hi)) (List.getElem_mem _)
    simpa using this

theorem assumed_iff (eps : Number) : assumed eps = true ↔ NonNegative eps := by
  cases eps with
  | nan => simp [assumed, Model.Kahan.atLeast, NonNegative]
  | inf s => cases s <;> simp [assumed, Model.Kahan.atLeast, Model.Kahan.less, NonNegative]
  | fin s a => simp [assumed, Model.Kahan.atLeast, Model.Kahan.less, NonNegative, signed]

theorem test_comm (g : Format) (eps a b : Number) : test g eps a b = test g eps b a := by
  unfold test
  congr 1
  unfold Op.eval
  cases a with
  | nan => cases b <;> rfl
  | inf s => cases b with
    | nan => rfl
    | inf t => cases s <;> cases t <;> rfl
    | fin t y => rfl
  | fin s x => cases b with
    | nan => rfl
    | inf t => rfl
    | fin t y =>
      have e1 : signed t y + signed (!s) x = -(signed s x + signed (!t) y) := by cases s <;> cases t <;> simp [signed]
      simp only [Number.sub, Number.negate, Number.add, e1]
      set z := signed s x + signed (!t) y
      by_cases h : z = 0
      · simp only [h, neg_zero, if_true, Format.round, Number.round]
        split_ifs <;> rfl
      · rw [if_neg (neg_ne_zero.2 h), if_neg h, abs_neg]
        simp only [Format.round, Number.round]
        split_ifs <;> rfl

theorem R_has {g : Format} (hp : 1 ≤ g.p) {s : Bool} {a : ℚ} (ha : 0 ≤ a) (hR : R g a) (hg : a ≤ g.greatest) : g.Has (.fin s a) := by
  obtain ⟨m, k, h1, h2, rfl⟩ := hR
  have hm : 0 ≤ m := by
    by_contra hc
    push Not at hc
    have h3 : (m : ℚ) < 0 := by exact_mod_cast hc
    have := mul_neg_of_neg_of_pos h3 (show (0 : ℚ) < 2 ^ k by positivity)
    linarith
  obtain ⟨n, rfl⟩ := Int.eq_ofNat_of_zero_le hm
  have h4 : n ≤ 2 ^ g.p := by
    rw [Nat.abs_cast] at h1
    exact_mod_cast h1
  refine ⟨?_, hg⟩
  rcases h4.lt_or_eq with h | h
  · exact ⟨n, k, h, h2, by simp⟩
  · refine ⟨2 ^ (g.p - 1), k + 1, ?_, by omega, ?_⟩
    · exact Nat.pow_lt_pow_right (by norm_num) (by omega)
    · rw [zpow_add_one₀ (by norm_num), h]
      have : (2 : ℚ) ^ g.p = 2 ^ (g.p - 1) * 2 := by rw [← pow_succ]; congr 1; omega
      push_cast
      rw [this]; ring

theorem round_is {g : Format} (hp : 1 ≤ g.p) {x : Number} (hx : ∀ s a, x = .fin s a → 0 ≤ a) : g.Has (g.round x) := by
  cases x with
  | nan => trivial
  | inf s => trivial
  | fin s a =>
    simp only [Format.round, Number.round]
    split_ifs with h
    · trivial
    · exact R_has hp (rd_nonneg hp (hx s a rfl)) (R_rd hp a) (not_lt.1 h)

/-- An exact difference is compared exactly. -/
theorem test_exact {g : Format} (hp : 1 ≤ g.p) {eps a : Number} (ha : g.Has a) (he : g.Has eps) (h : Close eps a (.fin false 0)) :
    test g eps a (.fin false 0) = true := by
  obtain ⟨A, B, hA, hB, hc⟩ := h
  have hB0 : B = 0 := by simpa [value, signed] using hB.symm
  subst hB0
  have hR := has_R ha hA
  have hv : value (Op.sub.eval g (.fin false 0) a) = some (0 - A) := by
    have e : rd g (0 - A) = 0 - A := by rw [zero_sub, rd_neg, rd_R hp hR.1]
    have := value_round g (value_sub hB hA) (by rw [e, zero_sub, abs_neg]; exact hR.2)
    rw [e] at this
    exact this
  rcases hc with rfl | ⟨E, hE, hlt⟩
  · unfold test
    cases h : Op.sub.eval g (.fin false 0) a with
    | nan => rw [h] at hv; simp [value] at hv
    | inf s => rw [h] at hv; simp [value] at hv
    | fin s y => simp [Model.Kahan.abs, Model.Kahan.less]
  · exact FloatLength.abs_less hv hE hlt

end Verif.Proofs.Approx
