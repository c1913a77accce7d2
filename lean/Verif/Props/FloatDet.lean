import Verif.Proofs.FloatDet
import Verif.Props.FloatMatrix
import Mathlib.LinearAlgebra.Matrix.NonsingularInverse
/-!
# C156: determinants and inverses of floating-point matrices
-/
namespace Verif.Props.FloatDet
open Verif.Spec.IeeeArith Verif.Spec.FloatFormat Verif.Spec.Determinants Verif.Model.VectorStore Verif.Model.MatrixStore Verif.Model.FloatVector
open Verif.Model.FloatDet Verif.Proofs.VectorStore Verif.Proofs.FloatVector Verif.Proofs.FloatError Verif.Proofs.FloatDet
open Verif.Props.FloatVector (num)
open Verif.Props.FloatMatrix (Entries)

theorem get_lookup {R C : ℕ} (m : Mat Number R C) (r : Fin R) (c : Fin C) : Model.MatrixStore.get m r c = lookup m r c := by
  unfold Model.MatrixStore.get lookup
  rw [dif_pos ⟨r.2, c.2⟩, dif_pos ⟨r.2, c.2⟩, index_parts _ _ r.2, component_parts]

theorem entries_value {R C : ℕ} {m : Mat Number R C} {A : Matrix (Fin R) (Fin C) ℚ} (h : Entries m A) (r : Fin R) (c : Fin C) : value (entry m r c) = some (A r c) := by
  obtain ⟨x, h1, h2⟩ := Option.bind_eq_some_iff.1 (h r c)
  unfold entry
  rw [get_lookup, h1]
  exact h2

/-- What the sign of an entry of the adjugate does. -/
def turn {n : ℕ} (i j : Fin n) (x : Number) : Number := if (i.val + j.val) % 2 = 0 then x else x.negate

theorem invert2_shape (f : Format) (k : Bool × Bool) (m : Mat Number 2 2) (i j : Fin 2) : lookup (invert2 f k m) i j =
    some (times f (reciprocal f (two f k fun a b => entry m a b)) (turn i j (entry m (j.succAbove 0) (i.succAbove 0)))) := by
  match i, j with
  | 0, 0 => rfl
  | 0, 1 => rfl
  | 1, 0 => rfl
  | 1, 1 => rfl

theorem invert3_shape (f : Format) (k : Three) (c : Fin 3 → Fin 3 → Bool × Bool) (m : Mat Number 3 3) (i j : Fin 3) : lookup (invert3 f k c m) i j =
    some (times f (reciprocal f (three f k.sum (k.minors 0) (k.minors 1) (k.minors 2) fun a b => entry m a b))
      (turn i j (two f (c i j) fun a b => entry m (j.succAbove a) (i.succAbove b)))) := by
  match i, j with
  | 0, 0 => rfl
  | 0, 1 => rfl
  | 0, 2 => rfl
  | 1, 0 => rfl
  | 1, 1 => rfl
  | 1, 2 => rfl
  | 2, 0 => rfl
  | 2, 1 => rfl
  | 2, 2 => rfl

/-- The determinant in the inverse of four columns. -/
def inner (f : Format) (k : Inverse4) (m : Mat Number 4 4) : Number :=
  Model.FloatDet.expand4 f k.sum
    (entry m 0 0, three f (k.inner 0) (k.minor 0) (k.minor 1) (k.minor 2) fun a b => entry m (Fin.succAbove (0 : Fin 4) a) (Fin.succAbove (0 : Fin 4) b))
    (entry m 0 1, three f (k.inner 1) (k.minor 0) (k.minor 3) (k.minor 4) fun a b => entry m (Fin.succAbove (0 : Fin 4) a) (Fin.succAbove (1 : Fin 4) b))
    (entry m 0 2, three f (k.inner 2) (k.minor 1) (k.minor 3) (k.minor 5) fun a b => entry m (Fin.succAbove (0 : Fin 4) a) (Fin.succAbove (2 : Fin 4) b))
    (entry m 0 3, three f (k.inner 3) (k.minor 2) (k.minor 4) (k.minor 5) fun a b => entry m (Fin.succAbove (0 : Fin 4) a) (Fin.succAbove (3 : Fin 4) b))

theorem invert4_shape (f : Format) (k : Inverse4) (m : Mat Number 4 4) (i j : Fin 4) : ∃ k0 k1 k2, lookup (invert4 f k m) i j =
    some (times f (reciprocal f (inner f k m)) (turn i j (three f (k.entry i j) k0 k1 k2 fun a b => entry m (j.succAbove a) (i.succAbove b)))) := by
  match i, j with
  | 0, 0 => exact ⟨k.minor 0, k.minor 1, k.minor 2, rfl⟩
  | 1, 0 => exact ⟨k.minor 0, k.minor 3, k.minor 4, rfl⟩
  | 2, 0 => exact ⟨k.minor 1, k.minor 3, k.minor 5, rfl⟩
  | 3, 0 => exact ⟨k.minor 2, k.minor 4, k.minor 5, rfl⟩
  | 0, 1 => exact ⟨k.minor 0, k.minor 1, k.minor 2, rfl⟩
  | 1, 1 => exact ⟨k.minor 0, k.minor 3, k.minor 4, rfl⟩
  | 2, 1 => exact ⟨k.minor 1, k.minor 3, k.minor 5, rfl⟩
  | 3, 1 => exact ⟨k.minor 2, k.minor 4, k.minor 5, rfl⟩
  | 0, 2 => exact ⟨k.minor 6, k.minor 7, k.minor 8, rfl⟩
  | 1, 2 => exact ⟨k.minor 6, k.minor 12, k.minor 13, rfl⟩
  | 2, 2 => exact ⟨k.minor 7, k.minor 12, k.minor 16, rfl⟩
  | 3, 2 => exact ⟨k.minor 8, k.minor 13, k.minor 16, rfl⟩
  | 0, 3 => exact ⟨k.minor 9, k.minor 10, k.minor 11, rfl⟩
  | 1, 3 => exact ⟨k.minor 9, k.minor 14, k.minor 15, rfl⟩
  | 2, 3 => exact ⟨k.minor 10, k.minor 14, k.minor 17, rfl⟩
  | 3, 3 => exact ⟨k.minor 11, k.minor 15, k.minor 17, rfl⟩

theorem turn_near {f : Format} {k n : ℕ} {M T : ℚ} {x : Number} (A : Matrix (Fin (n + 1)) (Fin (n + 1)) ℚ) (i j : Fin (n + 1))
    (h : Near f k M T x (A.submatrix j.succAbove i.succAbove).det) : Near f k M T (turn i j x) (A.adjugate i j) := by
  rw [Matrix.adjugate_fin_succ_eq_det_submatrix]
  unfold turn
  rw [add_comm i.val]
  split
  · rename_i h0
    rw [Even.neg_one_pow (Nat.even_iff.2 h0), one_mul]
    exact h
  · rename_i h0
    rw [Odd.neg_one_pow (Nat.odd_iff.2 (by omega)), neg_one_mul]
    exact h.negate

/-- The determinant of a matrix of up to four rows has an error of at most as many roundings as there are one after the other in the expansion along the first row, relative to the sum of the
magnitudes of the products of entries, whatever is contracted, if nothing overflows. -/
theorem C156_determinant (f : Format) {n : ℕ} (hn : 1 ≤ n) (h4 : n ≤ 4) (k : Choices) (m : Mat Number n n) (A : Matrix (Fin n) (Fin n) ℚ) (hm : Entries m A) (B : ℚ)
    (hB : 1 ≤ B) (hA : ∀ i j, |A i j| ≤ B) (hg : (1 + f.u) ^ steps n * (n.factorial * B ^ n + slack n B * f.tiny) ≤ f.greatest) :
    ∃ r z, determinant f k m = some r ∧ value r = some z ∧ |z - A.det| ≤ detError f B A := by
  have e := fun r c => entries_value hm r c
  have key : ∃ r, determinant f k m = some r ∧ Near f (steps n) (spread A) (slack n B * f.tiny) r A.det := by
    match n, hn, h4 with
    | 1, _, _ =>
      refine ⟨_, rfl, ?_⟩
      have := Near.exact f (e 0 0)
      rw [spread_one, Matrix.det_fin_one]
      simpa [steps, slack] using this
    | 2, _, _ => exact ⟨_, rfl, two_near f k.two (fun a b => entry m a b) A e hA (by simpa [steps, slack, Nat.factorial] using hg)⟩
    | 3, _, _ =>
      exact ⟨_, rfl, three_near f k.three.sum (k.three.minors 0) (k.three.minors 1) (k.three.minors 2) (fun a b => entry m a b) A e hB hA
        (by simpa [steps, slack, Nat.factorial] using hg)⟩
    | 4, _, _ =>
      have hg' : (1 + f.u) ^ 9 * (24 * B ^ 4 + 63 * B ^ 2 * f.tiny) ≤ f.greatest := by simpa [steps, slack, Nat.factorial] using hg
      have hg3 := less_three f hB hg'
      refine ⟨_, rfl, ?_⟩
      have c := fun (j : Fin 4) k k0 k1 k2 => three_near f k k0 k1 k2 (fun a b => entry m (Fin.succAbove (0 : Fin 4) a) (j.succAbove b))
        (A.submatrix (Fin.succAbove 0) j.succAbove) (fun a b => e _ _) hB (fun a b => hA _ _) hg3
      exact four_near f k.four.sum _ _ _ _ _ _ _ _ A (e 0 0) (e 0 1) (e 0 2) (e 0 3) hB hA (c 0 (k.four.minors 0).sum _ _ _) (c 1 (k.four.minors 1).sum _ _ _)
        (c 2 (k.four.minors 2).sum _ _ _) (c 3 (k.four.minors 3).sum _ _ _) hg'
  obtain ⟨r, h1, z, h2, -, -, h3⟩ := key
  exact ⟨r, z, h1, h2, h3⟩

theorem inv_entry {n : ℕ} (A : Matrix (Fin n) (Fin n) ℚ) (i j : Fin n) : A⁻¹ i j = A.adjugate i j / A.det := by
  rw [Matrix.inv_def, Ring.inverse_eq_inv', Matrix.smul_apply, smul_eq_mul, div_eq_inv_mul]

theorem inverse_one (f : Format) (k : InverseChoices) (m : Mat Number 1 1) (A : Matrix (Fin 1) (Fin 1) ℚ) (hm : Entries m A) (B θ : ℚ) (hD : A.det ≠ 0) (h1 : θ < 1)
    (hθ : detError f B A ≤ θ * |A.det|)
    (hi : (1 + f.u) ^ (steps 0 + 2) / (1 - θ) * (((0 : ℕ).factorial * B ^ 0 + slack 0 B * f.tiny) * (1 / |A.det| + f.tiny) + f.tiny) ≤ f.greatest) :
    ∃ s S, invert f k m = some s ∧ Entries s S ∧ ∀ i j, |S i j - A⁻¹ i j| ≤ inverseError f B θ A i j := by
  have e := entries_value hm 0 0
  have hu := u_pos f
  have ht := tiny_pos f
  have D0 : 0 < |A.det| := abs_pos.2 hD
  have θ0 : 0 ≤ θ := by
    by_contra hn
    have := mul_neg_of_neg_of_pos (not_le.1 hn) D0
    have : 0 ≤ detError f B A := by simp [detError, steps, slack]
    linarith
  have s0 : 0 < 1 - θ := by linarith
  set g := (1 + f.u) ^ (steps 0 + 2) / (1 - θ) with hg
  have g1 : 1 + f.u ≤ g := by
    rw [hg, le_div_iff₀ s0]
    show _ ≤ (1 + f.u) ^ 2
    nlinarith
  have er := err f (1 / A.det)
  rw [abs_div, abs_one] at er
  have i0 : 0 < 1 / |A.det| := by positivity
  have gi : f.u * (1 / |A.det|) ≤ (g - 1) * (1 / |A.det|) := mul_le_mul_of_nonneg_right (by linarith) i0.le
  have gt : 1 * f.tiny ≤ g * f.tiny := mul_le_mul_of_nonneg_right (by linarith) ht.le
  have hv : value (reciprocal f (entry m 0 0)) = some (rd f (1 / A.det)) := by
    rw [Matrix.det_fin_one] at *
    refine value_round f (value_div (by rfl) e hD) ?_
    refine le_trans ?_ hi
    have t := abs_add_le (1 / A 0 0) (rd f (1 / A 0 0) - 1 / A 0 0)
    rw [add_sub_cancel, abs_div, abs_one] at t
    norm_num [slack] at gi t er ⊢
    linarith
  refine ⟨invert1 f m, fun _ _ => rd f (1 / A.det), rfl, fun r c => ?_, fun i j => ?_⟩
  · rw [Subsingleton.elim r 0, Subsingleton.elim c 0]
    exact hv
  · rw [Subsingleton.elim i 0, Subsingleton.elim j 0, inv_entry, Matrix.adjugate_fin_one, Matrix.one_apply_eq]
    unfold inverseError minorSpread
    rw [spread_zero, ← hg]
    simp only [slack, zero_mul, zero_div, add_zero, one_mul]
    linarith

/-- The inverse of a matrix of up to four rows: where the determinant is computed with a relative error of at most `θ`, each entry has, beside that, the errors of its minor and of two
more roundings, whatever is contracted, if nothing overflows. -/
theorem C156_inverse (f : Format) {n : ℕ} (h4 : n < 4) (k : InverseChoices) (m : Mat Number (n + 1) (n + 1)) (A : Matrix (Fin (n + 1)) (Fin (n + 1)) ℚ) (hm : Entries m A) (B θ : ℚ)
    (hB : 1 ≤ B) (hA : ∀ i j, |A i j| ≤ B)
    (hg : (1 + f.u) ^ steps (n + 1) * ((n + 1).factorial * B ^ (n + 1) + slack (n + 1) B * f.tiny) ≤ f.greatest) (hD : A.det ≠ 0) (h1 : θ < 1)
    (hθ : detError f B A ≤ θ * |A.det|)
    (hi : (1 + f.u) ^ (steps n + 2) / (1 - θ) * ((n.factorial * B ^ n + slack n B * f.tiny) * (1 / |A.det| + f.tiny) + f.tiny) ≤ f.greatest) :
    ∃ s S, invert f k m = some s ∧ Entries s S ∧ ∀ i j, |S i j - A⁻¹ i j| ≤ inverseError f B θ A i j := by
  have e := fun r c => entries_value hm r c
  rcases Nat.eq_zero_or_pos n with h0 | h0
  · subst h0
    exact inverse_one f k m A hm B θ hD h1 hθ hi
  have key : ∃ (s : Mat Number (n + 1) (n + 1)) (d : Number) (c : Fin (n + 1) → Fin (n + 1) → Number), invert f k m = some s ∧ (∀ i j : Fin (n + 1), lookup s i j = some (times f (reciprocal f d) (c i j))) ∧
      Near f (steps (n + 1)) (spread A) (slack (n + 1) B * f.tiny) d A.det ∧
      ∀ i j : Fin (n + 1), Near f (steps n) (minorSpread A i j) (slack n B * f.tiny) (c i j) (A.adjugate i j) := by
    match n, h0, h4 with
    | 1, _, _ =>
      refine ⟨_, _, fun i j => turn i j (entry m (j.succAbove 0) (i.succAbove 0)), rfl, invert2_shape f k.two m,
        two_near f k.two (fun a b => entry m a b) A e hA (by simpa [steps, slack, Nat.factorial] using hg), fun i j => turn_near A i j ?_⟩
      unfold minorSpread
      rw [spread_one, Matrix.det_fin_one, Matrix.submatrix_apply]
      have := Near.exact f (e (j.succAbove 0) (i.succAbove 0))
      simpa [steps, slack] using this
    | 2, _, _ =>
      have hg' : (1 + f.u) ^ 5 * (6 * B ^ 3 + 14 * B * f.tiny) ≤ f.greatest := by simpa [steps, slack, Nat.factorial] using hg
      exact ⟨_, _, _, rfl, invert3_shape f k.three k.entry3 m, three_near f _ _ _ _ (fun a b => entry m a b) A e hB hA hg',
        fun i j => turn_near A i j (two_near f _ _ (A.submatrix j.succAbove i.succAbove) (fun a b => e _ _) (fun a b => hA _ _) (less_two f hB hg'))⟩
    | 3, _, _ =>
      have hg' : (1 + f.u) ^ 9 * (24 * B ^ 4 + 63 * B ^ 2 * f.tiny) ≤ f.greatest := by simpa [steps, slack, Nat.factorial] using hg
      have hg3 := less_three f hB hg'
      choose k0 k1 k2 h using invert4_shape f k.four m
      have c := fun (i j : Fin 4) k k0 k1 k2 => three_near f k k0 k1 k2 (fun a b => entry m (j.succAbove a) (i.succAbove b)) (A.submatrix j.succAbove i.succAbove) (fun a b => e _ _) hB
        (fun a b => hA _ _) hg3
      exact ⟨_, _, _, rfl, h, four_near f _ _ _ _ _ _ _ _ _ A (e 0 0) (e 0 1) (e 0 2) (e 0 3) hB hA (c 0 0 _ _ _ _) (c 1 0 _ _ _ _) (c 2 0 _ _ _ _) (c 3 0 _ _ _ _) hg',
        fun i j => turn_near A i j (c i j _ _ _ _)⟩
  obtain ⟨s, d, c, hs, hl, ⟨dz, d1, -, -, d2⟩, hc⟩ := key
  have P1 : 1 ≤ (n.factorial : ℚ) * B ^ n := one_le_mul_of_one_le_of_one_le (by exact_mod_cast n.factorial_pos) (one_le_pow₀ hB)
  have := fun i j => reciprocal_times f (P := n.factorial * B ^ n) hD ⟨dz, d1, d2⟩ h1 hθ (hc i j) (minorSpread_le A hA i j) P1 hi
  choose S h2 h3 using this
  refine ⟨s, S, hs, fun i j => ?_, fun i j => ?_⟩
  · rw [hl]
    exact h2 i j
  · rw [inv_entry]
    exact h3 i j

theorem turn_whole {n : ℕ} {x : Number} (Z : Matrix (Fin (n + 1)) (Fin (n + 1)) ℤ) (i j : Fin (n + 1)) {P : ℤ}
    (h : value x = some ((Z.submatrix j.succAbove i.succAbove).det : ℚ) ∧ |(Z.submatrix j.succAbove i.succAbove).det| ≤ P) :
    value (turn i j x) = some (Z.adjugate i j : ℚ) ∧ |Z.adjugate i j| ≤ P := by
  rw [Matrix.adjugate_fin_succ_eq_det_submatrix]
  unfold turn
  rw [add_comm i.val]
  split
  · rename_i h0
    rw [Even.neg_one_pow (Nat.even_iff.2 h0), one_mul]
    exact h
  · rename_i h0
    rw [Odd.neg_one_pow (Nat.odd_iff.2 (by omega)), neg_one_mul, abs_neg]
    refine ⟨?_, h.2⟩
    rw [Proofs.FloatProducts.value_negate h.1]
    push_cast
    rfl

theorem counts32 : Counts binary32 := ⟨by decide, by decide, by decide +kernel⟩
theorem counts64 : Counts binary64 := ⟨by decide, by decide, by decide +kernel⟩

/-- Determinants of matrices of small integers are exact: where `n! * B ^ n` is at most `2 ^ p`. -/
theorem C156_exact (f : Format) (hf : f = binary32 ∨ f = binary64) {n : ℕ} (hn : 1 ≤ n) (h4 : n ≤ 4) (k : Choices) (m : Mat Number n n) (Z : Matrix (Fin n) (Fin n) ℤ)
    (hm : Entries m (Z.map Int.cast)) (B : ℤ) (hB : 1 ≤ B) (hA : ∀ i j, |Z i j| ≤ B) (hg : n.factorial * B ^ n ≤ 2 ^ f.p) :
    ∃ r, determinant f k m = some r ∧ value r = some (Z.det : ℚ) := by
  have hf : Counts f := by
    rcases hf with rfl | rfl
    · exact counts32
    · exact counts64
  have e : ∀ (r c : Fin n), value (entry m r c) = some (Z r c : ℚ) := fun r c => entries_value hm r c
  match n, hn, h4 with
  | 1, _, _ => exact ⟨_, rfl, by rw [Matrix.det_fin_one]; exact e 0 0⟩
  | 2, _, _ => exact ⟨_, rfl, (whole_two hf k.two (fun a b => entry m a b) Z e hA (by simpa [Nat.factorial] using hg)).1⟩
  | 3, _, _ =>
    exact ⟨_, rfl, (whole_three hf k.three.sum (k.three.minors 0) (k.three.minors 1) (k.three.minors 2) (fun a b => entry m a b) Z e hB hA (by simpa [Nat.factorial] using hg)).1⟩
  | 4, _, _ =>
    have hg' : 24 * B ^ 4 ≤ 2 ^ f.p := by simpa [Nat.factorial] using hg
    have hg3 : 6 * B ^ 3 ≤ 2 ^ f.p := by
      have g3 : B ^ 3 ≤ B ^ 4 := pow_le_pow_right₀ hB (by omega)
      have : 0 ≤ B ^ 3 := by positivity
      linarith
    have c := fun (j : Fin 4) k k0 k1 k2 => whole_three hf k k0 k1 k2 (fun a b => entry m (Fin.succAbove (0 : Fin 4) a) (j.succAbove b))
      (Z.submatrix (Fin.succAbove 0) j.succAbove) (fun a b => e _ _) hB (fun a b => hA _ _) hg3
    exact ⟨_, rfl, whole_four hf k.four.sum _ _ _ _ _ _ _ _ Z (e 0 0) (e 0 1) (e 0 2) (e 0 3) hA (c 0 (k.four.minors 0).sum _ _ _) (c 1 (k.four.minors 1).sum _ _ _)
      (c 2 (k.four.minors 2).sum _ _ _) (c 3 (k.four.minors 3).sum _ _ _) hg'⟩

theorem whole_key {f : Format} (hf : Counts f) {n : ℕ} (h0 : 1 ≤ n) (h4 : n < 4) (k : InverseChoices) (m : Mat Number (n + 1) (n + 1))
    (Z : Matrix (Fin (n + 1)) (Fin (n + 1)) ℤ) (hm : Entries m (Z.map Int.cast)) (B : ℤ) (hB : 1 ≤ B) (hA : ∀ i j, |Z i j| ≤ B)
    (hg : (n + 1).factorial * B ^ (n + 1) ≤ 2 ^ f.p) :
    ∃ (s : Mat Number (n + 1) (n + 1)) (d : Number) (c : Fin (n + 1) → Fin (n + 1) → Number), invert f k m = some s ∧
      (∀ i j : Fin (n + 1), lookup s i j = some (times f (reciprocal f d) (c i j))) ∧ value d = some (Z.det : ℚ) ∧
      ∀ i j : Fin (n + 1), value (c i j) = some (Z.adjugate i j : ℚ) ∧ |Z.adjugate i j| ≤ 2 ^ f.p := by
  have e : ∀ (r c : Fin (n + 1)), value (entry m r c) = some (Z r c : ℚ) := fun r c => entries_value hm r c
  match n, h0, h4 with
  | 1, _, _ =>
    have hg' : 2 * B ^ 2 ≤ 2 ^ f.p := by simpa [Nat.factorial] using hg
    refine ⟨_, _, fun i j => turn i j (entry m (j.succAbove 0) (i.succAbove 0)), rfl, invert2_shape f k.two m,
      (whole_two hf k.two (fun a b => entry m a b) Z e hA hg').1, fun i j => turn_whole Z i j ?_⟩
    rw [Matrix.det_fin_one, Matrix.submatrix_apply]
    exact ⟨e _ _, (hA _ _).trans (by nlinarith)⟩
  | 2, _, _ =>
    have hg' : 6 * B ^ 3 ≤ 2 ^ f.p := by simpa [Nat.factorial] using hg
    have hg2 : 2 * B ^ 2 ≤ 2 ^ f.p := by
      have g3 : B ^ 2 ≤ B ^ 3 := pow_le_pow_right₀ hB (by omega)
      have : 0 ≤ B ^ 2 := by positivity
      linarith
    refine ⟨_, _, _, rfl, invert3_shape f k.three k.entry3 m, (whole_three hf _ _ _ _ (fun a b => entry m a b) Z e hB hA hg').1, fun i j => ?_⟩
    have := whole_two hf (k.entry3 i j) (fun a b => entry m (j.succAbove a) (i.succAbove b)) (Z.submatrix j.succAbove i.succAbove) (fun a b => e _ _) (fun a b => hA _ _) hg2
    exact turn_whole Z i j ⟨this.1, this.2.trans hg2⟩
  | 3, _, _ =>
    have hg' : 24 * B ^ 4 ≤ 2 ^ f.p := by simpa [Nat.factorial] using hg
    have hg3 : 6 * B ^ 3 ≤ 2 ^ f.p := by
      have g3 : B ^ 3 ≤ B ^ 4 := pow_le_pow_right₀ hB (by omega)
      have : 0 ≤ B ^ 3 := by positivity
      linarith
    choose k0 k1 k2 h using invert4_shape f k.four m
    have c := fun (i j : Fin 4) k k0 k1 k2 => whole_three hf k k0 k1 k2 (fun a b => entry m (j.succAbove a) (i.succAbove b)) (Z.submatrix j.succAbove i.succAbove) (fun a b => e _ _) hB
      (fun a b => hA _ _) hg3
    exact ⟨_, _, _, rfl, h, whole_four hf _ _ _ _ _ _ _ _ _ Z (e 0 0) (e 0 1) (e 0 2) (e 0 3) hA (c 0 0 _ _ _ _) (c 1 0 _ _ _ _) (c 2 0 _ _ _ _) (c 3 0 _ _ _ _) hg',
      fun i j => turn_whole Z i j ((c i j _ _ _ _).imp id fun h => h.trans hg3)⟩

theorem whole_reciprocal {f : Format} (hf : Counts f) {d : Number} {δ : ℤ} (hd : value d = some (δ : ℚ)) (h : δ = 1 ∨ δ = -1) : value (reciprocal f d) = some (δ : ℚ) := by
  have p1 : (1 : ℤ) ≤ 2 ^ f.p := one_le_pow₀ (by norm_num)
  refine whole_round hf ?_ (by rcases h with rfl | rfl <;> simpa using p1)
  rw [value_div (X := 1) (by rfl) hd (by rcases h with rfl | rfl <;> norm_num)]
  rcases h with rfl | rfl <;> norm_num

/-- Matrices of small integers with a determinant of one or minus one are inverted exactly. -/
theorem C156_unimodular (f : Format) (hf : f = binary32 ∨ f = binary64) {n : ℕ} (h4 : n < 4) (k : InverseChoices) (m : Mat Number (n + 1) (n + 1))
    (Z : Matrix (Fin (n + 1)) (Fin (n + 1)) ℤ) (hm : Entries m (Z.map Int.cast)) (B : ℤ) (hB : 1 ≤ B) (hA : ∀ i j, |Z i j| ≤ B)
    (hg : (n + 1).factorial * B ^ (n + 1) ≤ 2 ^ f.p) (hd : Z.det = 1 ∨ Z.det = -1) :
    ∃ (s : Mat Number (n + 1) (n + 1)) (W : Matrix (Fin (n + 1)) (Fin (n + 1)) ℤ), invert f k m = some s ∧ Entries s (W.map Int.cast) ∧ Z * W = 1 := by
  have hf : Counts f := by
    rcases hf with rfl | rfl
    · exact counts32
    · exact counts64
  have hW : Z * (Z.det • Z.adjugate) = 1 := by
    rw [Matrix.mul_smul, Matrix.mul_adjugate, smul_smul]
    rcases hd with h | h <;> simp [h]
  rcases Nat.eq_zero_or_pos n with h0 | h0
  · subst h0
    refine ⟨invert1 f m, Z.det • Z.adjugate, rfl, fun r c => ?_, hW⟩
    rw [Subsingleton.elim (α := Fin 1) r 0, Subsingleton.elim (α := Fin 1) c 0]
    have := whole_reciprocal hf (show value (entry m 0 0) = some (Z.det : ℚ) by rw [Matrix.det_fin_one]; exact entries_value hm 0 0) hd
    show value (reciprocal f (entry m 0 0)) = some ((((Z.det • Z.adjugate) 0 0 : ℤ)) : ℚ)
    rw [this, Matrix.smul_apply, Matrix.adjugate_fin_one, Matrix.one_apply_eq, smul_eq_mul, mul_one]
  · obtain ⟨s, d, c, h1, h2, h3, h5⟩ := whole_key hf h0 h4 k m Z hm B hB hA hg
    refine ⟨s, Z.det • Z.adjugate, h1, fun i j => ?_, hW⟩
    rw [h2]
    have r := whole_reciprocal hf h3 hd
    have := whole_product hf r (h5 i j).1 (by
      rw [abs_mul, show |Z.det| = 1 by rcases hd with h | h <;> simp [h], one_mul]
      exact (h5 i j).2) false
    exact this

theorem over_zero (f : Format) {d : Number} (hd : value d = some 0) : ∃ s, reciprocal f d = .inf s := by
  cases d with
  | nan => simp [value] at hd
  | inf s => simp [value] at hd
  | fin s q =>
    have q0 : q = 0 := by
      cases s <;> simpa [value, signed] using hd
    subst q0
    exact ⟨_, rfl⟩

theorem times_inf (f : Format) (s : Bool) (c : Number) : value (times f (.inf s) c) = none := by
  cases c with
  | nan => rfl
  | inf t => rfl
  | fin t q =>
    show value (f.round (if q = 0 then .nan else .inf (s != t))) = none
    split <;> rfl

/-- What a singular matrix of small integers is inverted to has no finite entries: `infinity_or_nan` tells. -/
theorem C156_singular (f : Format) (hf : f = binary32 ∨ f = binary64) {n : ℕ} (h4 : n < 4) (k : InverseChoices) (m : Mat Number (n + 1) (n + 1))
    (Z : Matrix (Fin (n + 1)) (Fin (n + 1)) ℤ) (hm : Entries m (Z.map Int.cast)) (B : ℤ) (hB : 1 ≤ B) (hA : ∀ i j, |Z i j| ≤ B)
    (hg : (n + 1).factorial * B ^ (n + 1) ≤ 2 ^ f.p) (hd : Z.det = 0) :
    ∃ s : Mat Number (n + 1) (n + 1), invert f k m = some s ∧ ∀ i j : Fin (n + 1), ∃ x, lookup s i j = some x ∧ value x = none := by
  have hf : Counts f := by
    rcases hf with rfl | rfl
    · exact counts32
    · exact counts64
  rcases Nat.eq_zero_or_pos n with h0 | h0
  · subst h0
    refine ⟨invert1 f m, rfl, fun r c => ⟨reciprocal f (entry m 0 0), ?_, ?_⟩⟩
    · rw [Subsingleton.elim (α := Fin 1) r 0, Subsingleton.elim (α := Fin 1) c 0]
      rfl
    · have e := entries_value hm 0 0
      rw [Matrix.det_fin_one] at hd
      obtain ⟨s, hs⟩ := over_zero f (show value (entry m 0 0) = some 0 by rw [show entry m 0 0 = entry m (0 : Fin 1) (0 : Fin 1) from rfl, e]; simp [hd])
      rw [hs]
      rfl
  · obtain ⟨s, d, c, h1, h2, h3, -⟩ := whole_key hf h0 h4 k m Z hm B hB hA hg
    obtain ⟨t, ht⟩ := over_zero f (d := d) (by rw [h3, hd]; simp)
    refine ⟨s, h1, fun i j => ⟨_, h2 i j, ?_⟩⟩
    rw [ht]
    exact times_inf f t _

/-- Matrices of `float`: one with a fraction, one with a determinant of one, and a singular one; and contractions. -/
def m3 : Mat Number 3 3 := ![.three (num 2) (num 0) (num 1), .three (num 1) (num (-3)) (num 2), .three (num 0) (num (1 / 2)) (num 4)]
def a3 : Matrix (Fin 3) (Fin 3) ℚ := !![2, 1, 0; 0, -3, 1 / 2; 1, 2, 4]
def m4 : Mat Number 4 4 :=
  ![.four (num 1) (num 2) (num 0) (num 1), .four (num 3) (num 7) (num 1) (num 3), .four (num (-2)) (num 1) (num 6) (num (-2)), .four (num 5) (num 0) (num 4) (num 6)]
def z4 : Matrix (Fin 4) (Fin 4) ℤ := !![1, 3, -2, 5; 2, 7, 1, 0; 0, 1, 6, 4; 1, 3, -2, 6]
def m2 : Mat Number 2 2 := ![.two (num 2) (num 3), .two (num 4) (num 6)]
def z2 : Matrix (Fin 2) (Fin 2) ℤ := !![2, 4; 3, 6]
def k3 : Three := ⟨(true, false, true), fun i => (i = 0, i = 1)⟩
def k0 : Choices := ⟨(true, false), k3, ⟨(false, true, true, true), fun _ => k3⟩⟩
def ki : InverseChoices := ⟨(true, false), k3, fun _ _ => (false, true), ⟨fun _ => (true, false), (true, false, true, true), fun _ => (true, false, true), fun _ _ => (false, true, false)⟩⟩

theorem m3_entries : Entries m3 a3 := by intro r c; fin_cases r <;> fin_cases c <;> decide +kernel
theorem m4_entries : Entries m4 (z4.map Int.cast) := by intro r c; fin_cases r <;> fin_cases c <;> decide +kernel
theorem m2_entries : Entries m2 (z2.map Int.cast) := by intro r c; fin_cases r <;> fin_cases c <;> decide +kernel

theorem a3_det : a3.det = -51 / 2 := by decide +kernel
theorem a3_spread : spread a3 = 53 / 2 := by
  rw [spread_succ, Fin.sum_univ_three]
  unfold minorSpread
  rw [spread_two, spread_two, spread_two]
  decide +kernel

example : ∃ r z, determinant binary32 k0 m3 = some r ∧ value r = some z ∧ |z - -51 / 2| ≤ detError binary32 4 a3 := by
  have := C156_determinant binary32 (by omega) (by omega) k0 m3 a3 m3_entries 4 (by norm_num) (by decide +kernel) (by decide +kernel)
  rwa [a3_det] at this

example : detError binary32 4 a3 ≤ 1 / 10 ^ 5 := by
  unfold detError
  rw [a3_spread]
  decide +kernel

example : ∃ s S, invert binary32 ki m3 = some s ∧ Entries s S ∧ ∀ i j, |S i j - a3⁻¹ i j| ≤ inverseError binary32 4 (1 / 10 ^ 6) a3 i j := by
  refine C156_inverse binary32 (by omega) ki m3 a3 m3_entries 4 (1 / 10 ^ 6) (by norm_num) (by decide +kernel) (by decide +kernel) (by rw [a3_det]; norm_num) (by norm_num) ?_ ?_
  · unfold detError
    rw [a3_spread, a3_det]
    decide +kernel
  · rw [a3_det]
    decide +kernel

theorem z4_det : z4.det = 1 := by decide +kernel

example : ∃ r, determinant binary32 k0 m4 = some r ∧ value r = some (z4.det : ℚ) :=
  C156_exact binary32 (.inl rfl) (by omega) (by omega) k0 m4 z4 m4_entries 7 (by norm_num) (by decide +kernel) (by decide +kernel)

example : ∃ (s : Mat Number 4 4) (W : Matrix (Fin 4) (Fin 4) ℤ), invert binary32 ki m4 = some s ∧ Entries s (W.map Int.cast) ∧ z4 * W = 1 :=
  C156_unimodular binary32 (.inl rfl) (by omega) ki m4 z4 m4_entries 7 (by norm_num) (by decide +kernel) (by decide +kernel) (.inl z4_det)

example : ∃ s : Mat Number 2 2, invert binary64 ki m2 = some s ∧ ∀ i j : Fin 2, ∃ x, lookup s i j = some x ∧ value x = none :=
  C156_singular binary64 (.inr rfl) (by omega) ki m2 z2 m2_entries 6 (by norm_num) (by decide +kernel) (by decide +kernel) (by decide +kernel)

end Verif.Props.FloatDet
