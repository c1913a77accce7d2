import Verif.Model.IntMatrix
import Verif.Props.MatrixStore
import Mathlib.Algebra.BigOperators.Group.Finset.Basic
import Mathlib.Algebra.Order.BigOperators.Group.Finset
import Mathlib.Algebra.BigOperators.Fin
import Mathlib.Tactic.Ring
import Mathlib.Tactic.Linarith
import Mathlib.Tactic.Positivity

/-! Lemmas about products and determinants of matrices of integers. -/

namespace Verif.Proofs.IntMatrix

open Verif.Spec.CInt Verif.Spec.Parts Verif.Model.VectorStore Verif.Model.MatrixStore Verif.Model.IntMatrix Verif.Proofs.VectorStore
  Verif.Proofs.MatrixStore Verif.Proofs.IntVector
open Verif.Model.IntVector (Op productType result)

/-- The bound below which results are exact. -/
def bound (t : Ty) : ℤ := 2 ^ (max t.bits 32 - 1)

theorem has_of {t : Ty} {x : ℤ} (h : |x| < bound t) : (productType t).Has x := by
  have := abs_lt.1 h
  refine ⟨?_, ?_⟩
  · simp only [Ty.lo, productType, if_true]; unfold bound at this; omega
  · simp only [Ty.hi, productType, if_true]; unfold bound at this; omega

theorem bits_pos (t : Ty) : 0 < (productType t).bits := by simp [productType]

theorem bits_le (t : Ty) : t.bits ≤ (productType t).bits := by simp [productType]

theorem conv_of {t : Ty} {x : ℤ} (h : |x| < bound t) : Model.CInt.conv (productType t) x = x :=
  Proofs.CInt.conv_has (bits_pos t) (has_of h)

theorem mul_eval {t : Ty} {a b M N : ℤ} (ha : |a| ≤ M) (hb : |b| ≤ N) (h : M * N < bound t) :
    Op.mul.eval (productType t) a b = some (a * b) ∧ |a * b| ≤ M * N := by
  have hab : |a * b| ≤ M * N := by rw [abs_mul]; exact mul_le_mul ha hb (abs_nonneg _) ((abs_nonneg _).trans ha)
  exact ⟨result_has (bits_pos t) (has_of (hab.trans_lt h)), hab⟩

theorem add_eval {t : Ty} {a b M N : ℤ} (ha : |a| ≤ M) (hb : |b| ≤ N) (h : M + N < bound t) :
    Op.add.eval (productType t) a b = some (a + b) ∧ |a + b| ≤ M + N := by
  have hab : |a + b| ≤ M + N := (abs_add_le a b).trans (add_le_add ha hb)
  exact ⟨result_has (bits_pos t) (has_of (hab.trans_lt h)), hab⟩

theorem sub_eval {t : Ty} {a b M N : ℤ} (ha : |a| ≤ M) (hb : |b| ≤ N) (h : M + N < bound t) :
    Op.sub.eval (productType t) a b = some (a - b) ∧ |a - b| ≤ M + N := by
  have hab : |a - b| ≤ M + N := (abs_sub a b).trans (add_le_add ha hb)
  exact ⟨result_has (bits_pos t) (has_of (hab.trans_lt h)), hab⟩

theorem sum_aux {t : Ty} (f g : ℕ → Option ℤ) (a b : ℕ → ℤ) {M N : ℤ} (n : ℕ) (hf : ∀ i < n, f i = some (a i)) (hg : ∀ i < n, g i = some (b i))
    (ha : ∀ i < n, |a i| ≤ M) (hb : ∀ i < n, |b i| ≤ N) (h : n * (M * N) < bound t) (hM : 0 ≤ M) (hN : 0 ≤ N) : ∀ k, k + 1 ≤ n →
      (do let val ← Op.mul.eval (productType t) (← f 0) (← g 0)
          (List.range' 1 k).foldlM (fun val i => do Op.add.eval (productType t) val (← Op.mul.eval (productType t) (← f i) (← g i))) val) =
        some (∑ i ∈ Finset.range (k + 1), a i * b i) ∧ |∑ i ∈ Finset.range (k + 1), a i * b i| ≤ ((k + 1 : ℕ) : ℤ) * (M * N) := by
  have hMN : 0 ≤ M * N := mul_nonneg hM hN
  have small : ∀ k : ℕ, k ≤ n → (k : ℤ) * (M * N) < bound t := fun k hk =>
    lt_of_le_of_lt (mul_le_mul_of_nonneg_right (by exact_mod_cast hk) hMN) h
  intro k
  induction k with
  | zero =>
    intro hk
    have hs := small 1 hk
    rw [Nat.cast_one, one_mul] at hs
    obtain ⟨h1, h2⟩ := mul_eval (ha 0 (by omega)) (hb 0 (by omega)) hs
    rw [hf 0 (by omega), hg 0 (by omega)]
    simp only [Option.bind_eq_bind, Option.bind_some, h1]
    exact ⟨by simp, by simpa only [zero_add, Finset.sum_range_one, Nat.cast_one, one_mul] using h2⟩
  | succ k ih =>
    intro hk
    obtain ⟨h1, h2⟩ := ih (by omega)
    have hs := small 1 (by omega)
    rw [Nat.cast_one, one_mul] at hs
    obtain ⟨h3, h4⟩ := mul_eval (ha (k + 1) (by omega)) (hb (k + 1) (by omega)) hs
    have hs2 := small (k + 1 + 1) hk
    rw [Nat.cast_succ, add_mul, one_mul] at hs2
    obtain ⟨h5, h6⟩ := add_eval h2 h4 hs2
    rw [Finset.sum_range_succ]
    refine ⟨?_, by rw [Nat.cast_succ (k + 1), add_mul, one_mul]; exact h6⟩
    rw [List.range'_concat]
    simp only [List.foldlM_append, ← bind_assoc]
    rw [hf 0 (by omega), hg 0 (by omega)] at *
    simp only [Option.bind_eq_bind, Option.bind_some] at h1 ⊢
    simp only [Option.bind_assoc] at h1 ⊢
    rw [← Option.bind_assoc, h1]
    simp only [List.foldlM_cons, List.foldlM_nil, Option.bind_eq_bind, Option.bind_some, one_mul]
    rw [show 1 + k = k + 1 by omega, hf (k + 1) (by omega), hg (k + 1) (by omega)]
    simp only [Option.bind_some, h3, h5]
    rfl

theorem sum_eval {t : Ty} (f g : ℕ → Option ℤ) {n : ℕ} (a b : Fin n → ℤ) {M N : ℤ} (hn : 0 < n) (hf : ∀ i : Fin n, f i = some (a i))
    (hg : ∀ i : Fin n, g i = some (b i)) (ha : ∀ i, |a i| ≤ M) (hb : ∀ i, |b i| ≤ N) (h : n * (M * N) < bound t) :
    sumOfProducts (productType t) n f g = some (∑ i, a i * b i) ∧ |∑ i, a i * b i| < bound t := by
  have hM : 0 ≤ M := (abs_nonneg _).trans (ha ⟨0, hn⟩)
  have hN : 0 ≤ N := (abs_nonneg _).trans (hb ⟨0, hn⟩)
  obtain ⟨h1, h2⟩ := sum_aux (t := t) f g (fun i => if h : i < n then a ⟨i, h⟩ else 0) (fun i => if h : i < n then b ⟨i, h⟩ else 0) (M := M) (N := N) n
    (fun i hi => by rw [dif_pos hi]; exact hf ⟨i, hi⟩) (fun i hi => by rw [dif_pos hi]; exact hg ⟨i, hi⟩)
    (fun i hi => by rw [dif_pos hi]; exact ha ⟨i, hi⟩) (fun i hi => by rw [dif_pos hi]; exact hb ⟨i, hi⟩) h hM hN (n - 1) (by omega)
  rw [show n - 1 + 1 = n by omega, ← Fin.sum_univ_eq_sum_range (fun i => (if h : i < n then a ⟨i, h⟩ else 0) * (if h : i < n then b ⟨i, h⟩ else 0))] at h1 h2
  simp only [Fin.is_lt, dite_true, Fin.eta] at h1 h2
  exact ⟨h1, lt_of_le_of_lt h2 h⟩

theorem tabulate_some {n : ℕ} (hn : 0 < n) (f : ℕ → Option ℤ) (g : Fin n → ℤ) (h : ∀ i : Fin n, f i = some (g i)) :
    ∃ v, tabulate n f = some v ∧ ∀ i, at_ v i = g i := by
  obtain ⟨v, h1, h2⟩ := init_parts (0 : ℤ) n (List.ofFn g) (by simp; omega) (by simp)
  refine ⟨v, ?_, fun i => ?_⟩
  · unfold tabulate
    rw [mapM_range f g h]
    exact h1
  · rw [at_of v i h2 (by rw [← h2, parts_length]; exact i.2)]
    simp [padded]

/-- Determinants by the first row. -/
def D2 (E : ℕ → ℕ → ℤ) (r0 r1 c0 c1 : ℕ) : ℤ := E r0 c0 * E r1 c1 - E r0 c1 * E r1 c0

def D3 (E : ℕ → ℕ → ℤ) (r0 r1 r2 c0 c1 c2 : ℕ) : ℤ :=
  E r0 c0 * D2 E r1 r2 c1 c2 - E r0 c1 * D2 E r1 r2 c0 c2 + E r0 c2 * D2 E r1 r2 c0 c1

def D4 (E : ℕ → ℕ → ℤ) (r0 r1 r2 r3 c0 c1 c2 c3 : ℕ) : ℤ :=
  E r0 c0 * D3 E r1 r2 r3 c1 c2 c3 - E r0 c1 * D3 E r1 r2 r3 c0 c2 c3 + E r0 c2 * D3 E r1 r2 r3 c0 c1 c3 - E r0 c3 * D3 E r1 r2 r3 c0 c1 c2

theorem raw2 {t : Ty} {R C : ℕ} {m : Mat ℤ R C} {E : ℕ → ℕ → ℤ} {M : ℤ} (hb : ∀ r c, |E r c| ≤ M) (h : 2 * M ^ 2 < bound t) (hM : 1 ≤ M)
    {r0 r1 c0 c1 : ℕ} (hg : ∀ r ∈ [r0, r1], ∀ c ∈ [c0, c1], matGet t m r c = some (E r c)) :
    rawDeterminant2 t m r0 r1 c0 c1 = some (D2 E r0 r1 c0 c1) ∧ |D2 E r0 r1 c0 c1| ≤ 2 * M ^ 2 := by
  have hs : M * M < bound t := by nlinarith
  obtain ⟨e1, b1⟩ := mul_eval (hb r0 c0) (hb r1 c1) hs
  obtain ⟨e2, b2⟩ := mul_eval (hb r0 c1) (hb r1 c0) hs
  obtain ⟨e3, b3⟩ := sub_eval b1 b2 (by nlinarith : M * M + M * M < bound t)
  refine ⟨?_, b3.trans (by nlinarith)⟩
  unfold rawDeterminant2
  rw [hg r0 (by simp) c0 (by simp), hg r1 (by simp) c1 (by simp), hg r0 (by simp) c1 (by simp), hg r1 (by simp) c0 (by simp)]
  simp only [Option.bind_eq_bind, Option.bind_some, e1, e2, e3, D2]

theorem raw3 {t : Ty} {R C : ℕ} {m : Mat ℤ R C} {E : ℕ → ℕ → ℤ} {M : ℤ} (hb : ∀ r c, |E r c| ≤ M) (h : 6 * M ^ 3 < bound t) (hM : 1 ≤ M)
    {r0 r1 r2 c0 c1 c2 : ℕ} (hg : ∀ r ∈ [r0, r1, r2], ∀ c ∈ [c0, c1, c2], matGet t m r c = some (E r c)) :
    rawDeterminant3 t m r0 r1 r2 c0 c1 c2 = some (D3 E r0 r1 r2 c0 c1 c2) ∧ |D3 E r0 r1 r2 c0 c1 c2| ≤ 6 * M ^ 3 := by
  have hM2 : 0 ≤ M ^ 2 := by positivity
  have e : M ^ 3 = M * M ^ 2 := by ring
  have h32 : M ^ 2 ≤ M ^ 3 := by nlinarith
  have h2 : 2 * M ^ 2 < bound t := by nlinarith
  have hs : M * (2 * M ^ 2) < bound t := by nlinarith
  obtain ⟨f1, a1⟩ := raw2 (m := m) (r0 := r1) (r1 := r2) (c0 := c1) (c1 := c2) hb h2 hM (fun r hr c hc => hg r (by simp at hr ⊢; omega) c (by simp at hc ⊢; omega))
  obtain ⟨f2, a2⟩ := raw2 (m := m) (r0 := r1) (r1 := r2) (c0 := c0) (c1 := c2) hb h2 hM (fun r hr c hc => hg r (by simp at hr ⊢; omega) c (by simp at hc ⊢; omega))
  obtain ⟨f3, a3⟩ := raw2 (m := m) (r0 := r1) (r1 := r2) (c0 := c0) (c1 := c1) hb h2 hM (fun r hr c hc => hg r (by simp at hr ⊢; omega) c (by simp at hc ⊢; omega))
  obtain ⟨e1, b1⟩ := mul_eval (hb r0 c0) a1 hs
  obtain ⟨e2, b2⟩ := mul_eval (hb r0 c1) a2 hs
  obtain ⟨e3, b3⟩ := mul_eval (hb r0 c2) a3 hs
  obtain ⟨e4, b4⟩ := sub_eval b1 b2 (by nlinarith : M * (2 * M ^ 2) + M * (2 * M ^ 2) < bound t)
  obtain ⟨e5, b5⟩ := add_eval b4 b3 (by nlinarith : M * (2 * M ^ 2) + M * (2 * M ^ 2) + M * (2 * M ^ 2) < bound t)
  refine ⟨?_, b5.trans (by nlinarith)⟩
  unfold rawDeterminant3
  rw [hg r0 (by simp) c0 (by simp), hg r0 (by simp) c1 (by simp), hg r0 (by simp) c2 (by simp), f1, f2, f3]
  simp only [Option.bind_eq_bind, Option.bind_some, e1, e2, e3, e4, e5, D3]

theorem raw4 {t : Ty} {R C : ℕ} {m : Mat ℤ R C} {E : ℕ → ℕ → ℤ} {M : ℤ} (hb : ∀ r c, |E r c| ≤ M) (h : 24 * M ^ 4 < bound t) (hM : 1 ≤ M)
    {r0 r1 r2 r3 c0 c1 c2 c3 : ℕ} (hg : ∀ r ∈ [r0, r1, r2, r3], ∀ c ∈ [c0, c1, c2, c3], matGet t m r c = some (E r c)) :
    rawDeterminant4 t m r0 r1 r2 r3 c0 c1 c2 c3 = some (D4 E r0 r1 r2 r3 c0 c1 c2 c3) ∧ |D4 E r0 r1 r2 r3 c0 c1 c2 c3| ≤ 24 * M ^ 4 := by
  have hM2 : 0 ≤ M ^ 3 := by positivity
  have e : M ^ 4 = M * M ^ 3 := by ring
  have h32 : M ^ 3 ≤ M ^ 4 := by nlinarith
  have h2 : 6 * M ^ 3 < bound t := by nlinarith
  have hs : M * (6 * M ^ 3) < bound t := by nlinarith
  obtain ⟨f1, a1⟩ := raw3 (m := m) (r0 := r1) (r1 := r2) (r2 := r3) (c0 := c1) (c1 := c2) (c2 := c3) hb h2 hM (fun r hr c hc => hg r (by simp at hr ⊢; omega) c (by simp at hc ⊢; omega))
  obtain ⟨f2, a2⟩ := raw3 (m := m) (r0 := r1) (r1 := r2) (r2 := r3) (c0 := c0) (c1 := c2) (c2 := c3) hb h2 hM (fun r hr c hc => hg r (by simp at hr ⊢; omega) c (by simp at hc ⊢; omega))
  obtain ⟨f3, a3⟩ := raw3 (m := m) (r0 := r1) (r1 := r2) (r2 := r3) (c0 := c0) (c1 := c1) (c2 := c3) hb h2 hM (fun r hr c hc => hg r (by simp at hr ⊢; omega) c (by simp at hc ⊢; omega))
  obtain ⟨f4, a4⟩ := raw3 (m := m) (r0 := r1) (r1 := r2) (r2 := r3) (c0 := c0) (c1 := c1) (c2 := c2) hb h2 hM (fun r hr c hc => hg r (by simp at hr ⊢; omega) c (by simp at hc ⊢; omega))
  obtain ⟨e1, b1⟩ := mul_eval (hb r0 c0) a1 hs
  obtain ⟨e2, b2⟩ := mul_eval (hb r0 c1) a2 hs
  obtain ⟨e3, b3⟩ := mul_eval (hb r0 c2) a3 hs
  obtain ⟨e4, b4⟩ := mul_eval (hb r0 c3) a4 hs
  obtain ⟨e5, b5⟩ := sub_eval b1 b2 (by nlinarith : M * (6 * M ^ 3) + M * (6 * M ^ 3) < bound t)
  obtain ⟨e6, b6⟩ := add_eval b5 b3 (by nlinarith : M * (6 * M ^ 3) + M * (6 * M ^ 3) + M * (6 * M ^ 3) < bound t)
  obtain ⟨e7, b7⟩ := sub_eval b6 b4 (by nlinarith : M * (6 * M ^ 3) + M * (6 * M ^ 3) + M * (6 * M ^ 3) + M * (6 * M ^ 3) < bound t)
  refine ⟨?_, b7.trans (by nlinarith)⟩
  unfold rawDeterminant4
  rw [hg r0 (by simp) c0 (by simp), hg r0 (by simp) c1 (by simp), hg r0 (by simp) c2 (by simp), hg r0 (by simp) c3 (by simp), f1, f2, f3, f4]
  simp only [Option.bind_eq_bind, Option.bind_some, e1, e2, e3, e4, e5, e6, e7, D4]

end Verif.Proofs.IntMatrix
