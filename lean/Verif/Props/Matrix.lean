import Mathlib.LinearAlgebra.Matrix.NonsingularInverse
import Verif.Proofs.Matrix

/-!
# Matrix algebra

The specification is mathematics itself: sums of products written with `∑`, and Mathlib's `Matrix` determinant.  The
scalars range over an arbitrary commutative ring (field for `invert`), so the theorems hold for exact arithmetic of any
kind; see `DESIGN.md` for what that leaves out.
-/

namespace Verif.Props.Matrix

open Verif.Model.Matrix Verif.Proofs.Matrix

variable {K : Type*}

section ring
variable [CommRing K]

/-- C75: every entry of `a * b` is the row-by-column sum of products, whichever of the unrolled sizes or the general
loop computes it. -/
theorem C75_product {R N C : ℕ} (a : Mat K R N) (b : Mat K N C) (i : Fin R) (j : Fin C) :
    mul a b i j = ∑ k, a i k * b k j := by
  rw [mul_eq]; rfl

/-- C75: matrix times column vector and row vector times matrix. -/
theorem C75_vectors {R C : ℕ} (m : Mat K R C) (v : Fin C → K) (w : Fin R → K) :
    (∀ i, mulVec m v i = ∑ k, m i k * v k) ∧ (∀ j, vecMul w m j = ∑ k, w k * m k j) := by
  rw [mulVec_eq, vecMul_eq]; exact ⟨fun _ => rfl, fun _ => rfl⟩

/-- C75: multiplication associates, also when the three products go through different code paths. -/
theorem C75_assoc {A B C D : ℕ} (a : Mat K A B) (b : Mat K B C) (c : Mat K C D) :
    mul (mul a b) c = mul a (mul b c) := by
  rw [mul_eq (mul a b) c, mul_eq a b, mul_eq a (mul b c), mul_eq b c]
  exact Matrix.mul_assoc (Matrix.of a) (Matrix.of b) (Matrix.of c)

/-- C75: applying `a * b` to a vector is applying `b`, then `a`; from the left, `a`, then `b`. -/
theorem C75_compose {A B C : ℕ} (a : Mat K A B) (b : Mat K B C) (v : Fin C → K) (w : Fin A → K) :
    mulVec (mul a b) v = mulVec a (mulVec b v) ∧ vecMul w (mul a b) = vecMul (vecMul w a) b := by
  rw [mulVec_eq (mul a b) v, mulVec_eq a, mulVec_eq b, vecMul_eq w (mul a b), vecMul_eq (vecMul w a) b,
    vecMul_eq w a, mul_eq]
  exact ⟨(Matrix.mulVec_mulVec v (Matrix.of a) (Matrix.of b)).symm,
    (Matrix.vecMul_vecMul w (Matrix.of a) (Matrix.of b)).symm⟩

/-- C75: the identity constant is neutral on both sides, for every size. -/
theorem C75_identity {R C : ℕ} (m : Mat K R C) :
    mul (identity R R) m = m ∧ mul m (identity C C) = m := by
  constructor <;> funext i j <;> rw [C75_product, identity_eq]
  · simp [Fin.val_inj]
  · simp [Fin.val_inj]

/-- C76: the row-major constructors put the `k`-th value at row `k / C`, column `k % C`, and zero where no value was
given; the five sizes with their own constructor agree with the general one. -/
theorem C76_row_major {R C : ℕ} (vals : List K) (i : Fin R) (j : Fin C) :
    (ofScalars vals : Mat K R C) i j = (vals[i.1 * C + j.1]?).getD 0 := by
  simp only [ofScalars, ofCols]
  rw [Nat.add_comm, Nat.mul_comm]

theorem C76_row_major_common (a b c d e f g h i j k l m n o p : K) :
    ofScalars22 a b c d = ofScalars [a, b, c, d] ∧
    ofScalars23 a b c d e f = ofScalars [a, b, c, d, e, f] ∧
    ofScalars33 a b c d e f g h i = ofScalars [a, b, c, d, e, f, g, h, i] ∧
    ofScalars34 a b c d e f g h i j k l = ofScalars [a, b, c, d, e, f, g, h, i, j, k, l] ∧
    ofScalars44 a b c d e f g h i j k l m n o p
      = ofScalars [a, b, c, d, e, f, g, h, i, j, k, l, m, n, o, p] := by
  refine ⟨?_, ?_, ?_, ?_, ?_⟩ <;> funext r s <;> fin_cases r <;> fin_cases s <;> rfl

/-- C76: transposing exchanges rows and columns, twice is the identity, and reverses products. -/
theorem C76_transpose {A B C : ℕ} (a : Mat K A B) (b : Mat K B C) :
    (∀ i j, transpose a i j = a j i) ∧ transpose (transpose a) = a ∧
      transpose (mul a b) = mul (transpose b) (transpose a) := by
  refine ⟨fun i j => by rw [transpose_eq], by simp only [transpose_eq], ?_⟩
  funext i j
  rw [C75_product]
  simp only [transpose_eq, C75_product]
  exact Finset.sum_congr rfl fun _ _ => mul_comm _ _

/-- C77: `determinant` is the determinant, for every square matrix the function accepts (sizes 1 to 4; the other sizes
do not compile). -/
theorem C77_determinant {n : ℕ} (m : Mat K n n) :
    determinant m = if 1 ≤ n ∧ n ≤ 4 then some (Matrix.det (Matrix.of m)) else none := by
  match n, m with
  | 0, m => rfl
  | 1, m => rw [determinant, det1 m]; rfl
  | 2, m => rw [determinant, det2]; rfl
  | 3, m => rw [determinant, det3]; rfl
  | 4, m => rw [determinant, det4]; rfl
  | n + 5, m => rw [if_neg (by omega)]; rfl

/-- C77: it is multiplicative and unchanged by transposition. -/
theorem C77_determinant_mul {n : ℕ} (a b : Mat K n n) (x y : K)
    (ha : determinant a = some x) (hb : determinant b = some y) :
    determinant (mul a b) = some (x * y) ∧ determinant (transpose a) = some x := by
  rw [C77_determinant] at ha hb
  split at ha
  case isFalse => exact absurd ha (by simp)
  rename_i hn
  rw [if_pos hn] at hb
  rw [C77_determinant, if_pos hn, C77_determinant, if_pos hn, ← Option.some.inj ha, ← Option.some.inj hb]
  constructor
  · rw [mul_eq]
    exact congrArg some (Matrix.det_mul (Matrix.of a) (Matrix.of b))
  · rw [transpose_eq]
    exact congrArg some (Matrix.det_transpose (Matrix.of a))

end ring

section field
variable [Field K]

/-- C78: for every accepted size, whenever the determinant is not zero the result of `invert` is the two-sided inverse
with respect to the library's own product and identity. -/
theorem C78_invert {n : ℕ} (hn : 1 ≤ n) (hn4 : n ≤ 4) (m : Mat K n n) (hdet : determinant m ≠ some 0) :
    ∃ inv, invert m = some inv ∧ mul inv m = identity n n ∧ mul m inv = identity n n := by
  have hd : Matrix.det (Matrix.of m) ≠ 0 := by
    intro h0
    rw [C77_determinant, if_pos ⟨hn, hn4⟩, h0] at hdet
    exact hdet rfl
  have hid : (identity n n : Mat K n n) = (1 : Matrix (Fin n) (Fin n) K) := by
    rw [identity_eq]; funext i j; simp [Matrix.one_apply, Fin.val_inj]
  have key : ∀ inv : Mat K n n, Matrix.of inv * Matrix.of m = 1 →
      mul inv m = identity n n ∧ mul m inv = identity n n := by
    intro inv h
    rw [mul_eq, mul_eq, hid]
    exact ⟨h, mul_eq_one_comm.mp h⟩
  match n, m with
  | 1, m => exact ⟨_, rfl, key _ (invert1_mul m hd)⟩
  | 2, m => exact ⟨_, rfl, key _ (invert2_mul m hd)⟩
  | 3, m => exact ⟨_, rfl, key _ (invert3_mul m hd)⟩
  | 4, m => exact ⟨_, rfl, key _ (invert4_mul m hd)⟩

/-- C78: consequently `invert` solves linear systems, and inverting twice gives the matrix back. -/
theorem C78_solve {n : ℕ} (hn : 1 ≤ n) (hn4 : n ≤ 4) (m : Mat K n n) (hdet : determinant m ≠ some 0) :
    ∃ inv, invert m = some inv ∧ (∀ v w, mulVec m v = w ↔ v = mulVec inv w) ∧ invert inv = some m := by
  obtain ⟨inv, hinv, hl, hr⟩ := C78_invert hn hn4 m hdet
  have hone : ∀ v : Fin n → K, mulVec (identity n n) v = v := by
    intro v
    funext i
    rw [(C75_vectors _ v v).1, identity_eq]
    simp [Fin.val_inj]
  refine ⟨inv, hinv, fun v w => ⟨fun h => ?_, fun h => ?_⟩, ?_⟩
  · rw [← h, ← (C75_compose inv m v v).1, hl, hone]
  · rw [h, ← (C75_compose m inv w w).1, hr, hone]
  · have hdi : determinant inv ≠ some 0 := by
      intro h0
      have hm : determinant m = some (Matrix.det (Matrix.of m)) := by
        rw [C77_determinant, if_pos ⟨hn, hn4⟩]
      have h1 := (C77_determinant_mul m inv _ 0 hm h0).1
      rw [hr, C77_determinant, if_pos ⟨hn, hn4⟩, mul_zero] at h1
      have h2 : Matrix.of (identity n n : Mat K n n) = 1 := by
        rw [identity_eq]; ext i j; simp [Matrix.one_apply, Fin.val_inj]
      rw [h2, Matrix.det_one] at h1
      exact one_ne_zero (Option.some.inj h1)
    obtain ⟨inv2, h2, hl2, hr2⟩ := C78_invert hn hn4 inv hdi
    rw [h2]
    congr 1
    calc inv2 = mul inv2 (identity n n) := ((C75_identity inv2).2).symm
      _ = mul inv2 (mul inv m) := by rw [hl]
      _ = mul (mul inv2 inv) m := (C75_assoc _ _ _).symm
      _ = m := by rw [hl2, (C75_identity m).1]

end field

/-! ### The hypotheses are met -/

/-- A 4x4 integer matrix: determinant, as computed by the model. -/
example : determinant (ofScalars44 1 2 0 1 0 1 3 0 2 0 1 1 1 1 0 (2 : ℤ)) = some 16 := by decide

/-- The same matrix over the rationals is invertible, so `C78_invert` and `C78_solve` apply to it. -/
example : determinant (ofScalars44 1 2 0 1 0 1 3 0 2 0 1 1 1 1 0 (2 : ℚ)) ≠ some 0 := by
  rw [C77_determinant]
  decide +kernel

/-- A product that goes through the general loop (2x3 times 3x2). -/
example : mul (ofScalars23 1 2 3 4 5 6 : Mat ℤ 2 3) (ofScalars [7, 8, 9, 10, 11, 12] : Mat ℤ 3 2)
    = ofScalars22 58 64 139 154 := by decide

end Verif.Props.Matrix
