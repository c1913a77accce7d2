import Verif.Proofs.IntMatrix
import Mathlib.LinearAlgebra.Matrix.Determinant.Basic
import Mathlib.Tactic.IntervalCases
import Mathlib.Tactic.NormNum.BigOperators

/-! # C144: products and determinants of matrices of integers -/

namespace Verif.Props.IntMatrix

open Verif.Spec.CInt Verif.Spec.Parts Verif.Model.VectorStore Verif.Model.MatrixStore Verif.Model.IntMatrix Verif.Proofs.VectorStore
  Verif.Proofs.MatrixStore Verif.Proofs.IntVector Verif.Proofs.IntMatrix Verif.Props.MatrixStore
open Verif.Model.IntVector (productType)

/-- The matrix of mathematics with the same entries. -/
def asMatrix {R C : ℕ} (m : Mat ℤ R C) : Matrix (Fin R) (Fin C) ℤ := entry m

/-- The components of a vector. -/
def asVector {n : ℕ} (v : Store ℤ n) : Fin n → ℤ := at_ v

/-- `s` is the number `x` reduced to the type, so `x` itself if it is a value of the type. -/
def IsResult (t : Ty) (x s : ℤ) : Prop := Reduced t x s ∧ (t.Has x → s = x)

theorem isResult_conv {t : Ty} (ht : 0 < t.bits) (x : ℤ) : IsResult t x (Model.CInt.conv t x) :=
  ⟨conv_reduced ht x, fun h => Proofs.CInt.conv_has ht h⟩

theorem mulIn_some (t : Ty) {R K C : ℕ} (hR : 0 < R) (hK : 0 < K) (l : Mat ℤ R K) (r : Mat ℤ K C) (M N : ℤ) (hl : ∀ i j, |entry l i j| ≤ M)
    (hr : ∀ i j, |entry r i j| ≤ N) (h : K * (M * N) < bound t) :
    ∃ s, mulIn (productType t) l r = some s ∧ ∀ i j, entry s i j = (asMatrix l * asMatrix r) i j ∧ |entry s i j| < bound t := by
  have key : ∀ c : Fin C, ∃ v, (tabulate R fun r' => sumOfProducts (productType t) K (fun i => lookup l r' i) (fun i => lookup r i c)) = some v ∧
      ∀ i, at_ v i = (asMatrix l * asMatrix r) i c ∧ |at_ v i| < bound t := by
    intro c
    have hs := fun r' : Fin R => sum_eval (t := t) (fun i => lookup l r' i) (fun i => lookup r i c) (fun i => entry l r' i) (fun i => entry r i c) (M := M) (N := N) hK
      (fun i => ((C143_access l).1 r' i).2.1) (fun i => ((C143_access r).1 i c).2.1) (fun i => hl r' i) (fun i => hr i c) h
    obtain ⟨v, h1, h2⟩ := tabulate_some hR (fun r' => sumOfProducts (productType t) K (fun i => lookup l r' i) (fun i => lookup r i c)) (fun r' => ∑ i, entry l r' i * entry r i c) fun r' => (hs r').1
    exact ⟨v, h1, fun i => by rw [h2]; exact ⟨rfl, (hs i).2⟩⟩
  choose f hf1 hf2 using key
  exact ⟨f, gather_some _ _ hf1, fun i j => hf2 j i⟩

theorem convert_same (t : Ty) {R C : ℕ} (hR : 0 < R) (m : Mat ℤ R C) (hm : ∀ i j, |entry m i j| < bound t) :
    convert 0 (Model.CInt.conv (productType t)) R C m = some m := by
  obtain ⟨w, h1, h2⟩ := C143_convert (0 : ℤ) (Model.CInt.conv (productType t)) R C R C hR m
  rw [h1, (C143_access w).2.2 m fun r c => ?_]
  rw [h2, dif_pos ⟨r.2, c.2⟩, conv_of (hm _ _)]

theorem convert_vec (t : Ty) {n : ℕ} (v : Store ℤ n) (hv : ∀ i, |asVector v i| < bound t) :
    Model.VectorStore.convert 0 (Model.CInt.conv (productType t)) n v = some v := by
  obtain ⟨w, h1, h2⟩ := convert_at (0 : ℤ) (Model.CInt.conv (productType t)) (pos v) v
  rw [h1, show w = v from at_ext fun i => ?_]
  rw [h2, dif_pos i.2]
  exact conv_of (hv _)

theorem small {K : ℕ} {M N B : ℤ} (hK : 0 < K) (hM : 1 ≤ M) (hN : 1 ≤ N) (h : K * (M * N) < B) : M < B ∧ N < B := by
  have hK' : (1 : ℤ) ≤ K := by exact_mod_cast hK
  constructor <;> nlinarith [mul_nonneg (by omega : 0 ≤ M - 1) (by omega : 0 ≤ N - 1), mul_nonneg (by omega : (0 : ℤ) ≤ K - 1) (mul_nonneg (by omega : 0 ≤ M) (by omega : 0 ≤ N))]

/-- The product of matrices of integers has the entries of the exact product, reduced to the scalar type, if the sums of `K` products of
entries of at most `M` and `N` are less than `2^31` (or `2^(bits - 1)` for wider types); and so has compound assignment. -/
theorem C144_product_partial (t : Ty) (ht : 0 < t.bits) {R K C : ℕ} (hR : 0 < R) (hK : 0 < K) (l : Mat ℤ R K) (r : Mat ℤ K C) (M N : ℤ)
    (hM : 1 ≤ M) (hN : 1 ≤ N) (hl : ∀ i j, |entry l i j| ≤ M) (hr : ∀ i j, |entry r i j| ≤ N) (h : K * (M * N) < 2 ^ (max t.bits 32 - 1)) :
    ∃ s, mul t l r = some s ∧ ∀ i j, IsResult t ((asMatrix l * asMatrix r) i j) (entry s i j) := by
  change _ < bound t at h
  obtain ⟨s, h1, h2⟩ := mulIn_some t hR hK l r M N hl hr h
  obtain ⟨hMB, hNB⟩ := small hK hM hN h
  unfold mul
  split_ifs with hp
  · rw [hp] at h1
    refine ⟨s, h1, fun i j => ?_⟩
    rw [(h2 i j).1]
    have hh := has_of (h2 i j).2
    rw [(h2 i j).1, hp] at hh
    exact ⟨reduced_self hh, fun _ => rfl⟩
  · rw [convert_same t hR l fun i j => (hl i j).trans_lt hMB, convert_same t hK r fun i j => (hr i j).trans_lt hNB]
    simp only [Option.bind_eq_bind, Option.bind_some, h1]
    obtain ⟨w, h3, h4⟩ := C143_convert (0 : ℤ) (Model.CInt.conv t) R C R C hR s
    refine ⟨w, h3, fun i j => ?_⟩
    rw [h4, dif_pos ⟨i.2, j.2⟩]
    rw [show entry s ⟨i.1, i.2⟩ ⟨j.1, j.2⟩ = (asMatrix l * asMatrix r) i j from (h2 i j).1]
    exact isResult_conv ht _

/-- `*=` gives what the operator gives, also if a matrix is multiplied by itself. -/
theorem C144_assign (t : Ty) {n : ℕ} (l r : Mat ℤ n n) :
    mulAssign t l (.other r) = mul t l r ∧ mulAssign t l .itself = mul t l l := ⟨rfl, rfl⟩

/-- The same of a matrix and a column. -/
theorem C144_column_partial (t : Ty) (ht : 0 < t.bits) {R C : ℕ} (hR : 0 < R) (m : Mat ℤ R C) (v : Store ℤ C) (M N : ℤ)
    (hM : 1 ≤ M) (hN : 1 ≤ N) (hm : ∀ i j, |entry m i j| ≤ M) (hv : ∀ i, |asVector v i| ≤ N) (h : C * (M * N) < 2 ^ (max t.bits 32 - 1)) :
    ∃ s, mulVec t m v = some s ∧ ∀ i, IsResult t ((asMatrix m).mulVec (asVector v) i) (asVector s i) := by
  have hC := pos v
  change _ < bound t at h
  obtain ⟨hMB, hNB⟩ := small hC hM hN h
  have hs := fun r : Fin R => sum_eval (t := t) (fun i => lookup m r i) (index v) (fun i => entry m r i) (asVector v) (M := M) (N := N) hC
    (fun i => ((C143_access m).1 r i).2.1) (fun i => by
      rw [index_parts v i i.2, List.getElem?_eq_getElem (by rw [parts_length]; exact i.2)]; rfl) (fun i => hm r i) hv h
  obtain ⟨s, h1, h2⟩ := tabulate_some hR (fun r => sumOfProducts (productType t) C (fun i => lookup m r i) (index v)) (fun r => ∑ i, entry m r i * asVector v i) fun r => (hs r).1
  have e : ∀ i, asVector s i = (asMatrix m).mulVec (asVector v) i := h2
  unfold mulVec
  dsimp only
  split_ifs with hp
  · rw [hp] at h1
    refine ⟨s, h1, fun i => ?_⟩
    have hh := has_of (hs i).2
    rw [e]
    rw [hp] at hh
    exact ⟨reduced_self hh, fun _ => rfl⟩
  · rw [convert_same t hR m fun i j => (hm i j).trans_lt hMB, convert_vec t v fun i => (hv i).trans_lt hNB]
    simp only [Option.bind_eq_bind, Option.bind_some, h1]
    obtain ⟨x, h3, h4⟩ := convert_at (0 : ℤ) (Model.CInt.conv t) hR s
    refine ⟨x, h3, fun i => ?_⟩
    rw [show asVector x i = _ from h4 i, dif_pos i.2, show at_ s ⟨i.1, i.2⟩ = _ from e i]
    exact isResult_conv ht _

/-- The same of a row and a matrix. -/
theorem C144_row_partial (t : Ty) (ht : 0 < t.bits) {R C : ℕ} (hC : 0 < C) (w : Store ℤ R) (m : Mat ℤ R C) (M N : ℤ)
    (hM : 1 ≤ M) (hN : 1 ≤ N) (hw : ∀ i, |asVector w i| ≤ N) (hm : ∀ i j, |entry m i j| ≤ M) (h : R * (N * M) < 2 ^ (max t.bits 32 - 1)) :
    ∃ s, vecMul t w m = some s ∧ ∀ i, IsResult t ((asMatrix m).vecMul (asVector w) i) (asVector s i) := by
  have hR := pos w
  change _ < bound t at h
  obtain ⟨hNB, hMB⟩ := small hR hN hM h
  have hs := fun c : Fin C => sum_eval (t := t) (index w) (fun i => lookup m i c) (asVector w) (fun i => entry m i c) (M := N) (N := M) hR
    (fun i => by rw [index_parts w i i.2, List.getElem?_eq_getElem (by rw [parts_length]; exact i.2)]; rfl)
    (fun i => ((C143_access m).1 i c).2.1) hw (fun i => hm i c) h
  obtain ⟨s, h1, h2⟩ := tabulate_some hC (fun c => sumOfProducts (productType t) R (index w) (fun i => lookup m i c)) (fun c => ∑ i, asVector w i * entry m i c) fun c => (hs c).1
  have e : ∀ i, asVector s i = (asMatrix m).vecMul (asVector w) i := h2
  unfold vecMul
  dsimp only
  split_ifs with hp
  · rw [hp] at h1
    refine ⟨s, h1, fun i => ?_⟩
    have hh := has_of (hs i).2
    rw [e]
    rw [hp] at hh
    exact ⟨reduced_self hh, fun _ => rfl⟩
  · rw [convert_same t hR m fun i j => (hm i j).trans_lt hMB, convert_vec t w fun i => (hw i).trans_lt hNB]
    simp only [Option.bind_eq_bind, Option.bind_some, h1]
    obtain ⟨x, h3, h4⟩ := convert_at (0 : ℤ) (Model.CInt.conv t) hC s
    refine ⟨x, h3, fun i => ?_⟩
    rw [show asVector x i = _ from h4 i, dif_pos i.2, show at_ s ⟨i.1, i.2⟩ = _ from e i]
    exact isResult_conv ht _

theorem byte_abs {t : Ty} (ht : 0 < t.bits) (h8 : t.bits ≤ 8) {x : ℤ} (h : t.Has x) : |x| ≤ 255 := by
  obtain ⟨h1, h2, -⟩ := IntVector.hi_lt ht h
  have p1 : (2 : ℤ) ^ t.bits ≤ 2 ^ 8 := Proofs.CInt.two_pow_mono h8
  have p2 : (2 : ℤ) ^ (t.bits - 1) ≤ 2 ^ 7 := Proofs.CInt.two_pow_mono (by omega)
  rw [abs_le]
  constructor <;> omega

/-- For bytes nothing can go wrong: products of matrices of up to 33025 columns and of vectors of that size are always the exact ones modulo 256. -/
theorem C144_bytes (t : Ty) (ht : 0 < t.bits) (h8 : t.bits ≤ 8) {R K C : ℕ} (hR : 0 < R) (hK : 0 < K) (hC : K ≤ 33025) (l : Mat ℤ R K) (r : Mat ℤ K C)
    (v : Store ℤ K) (hl : ∀ i j, t.Has (entry l i j)) (hr : ∀ i j, t.Has (entry r i j)) (hv : ∀ i, t.Has (asVector v i)) :
    (∃ s, mul t l r = some s ∧ ∀ i j, IsResult t ((asMatrix l * asMatrix r) i j) (entry s i j)) ∧
    (∃ s, mulVec t l v = some s ∧ ∀ i, IsResult t ((asMatrix l).mulVec (asVector v) i) (asVector s i)) ∧
    (0 < C → ∃ s, vecMul t v r = some s ∧ ∀ i, IsResult t ((asMatrix r).vecMul (asVector v) i) (asVector s i)) := by
  have hb : (K : ℤ) * (255 * 255) < 2 ^ (max t.bits 32 - 1) := by
    rw [show max t.bits 32 = 32 by omega]
    have : (K : ℤ) ≤ 33025 := by exact_mod_cast hC
    norm_num
    omega
  refine ⟨C144_product_partial t ht hR hK l r 255 255 (by norm_num) (by norm_num) (fun i j => byte_abs ht h8 (hl i j))
    (fun i j => byte_abs ht h8 (hr i j)) hb, ?_, fun h => ?_⟩
  · exact C144_column_partial t ht hR l v 255 255 (by norm_num) (by norm_num) (fun i j => byte_abs ht h8 (hl i j))
      (fun i => byte_abs ht h8 (hv i)) hb
  · exact C144_row_partial t ht h v r 255 255 (by norm_num) (by norm_num) (fun i => byte_abs ht h8 (hv i))
      (fun i j => byte_abs ht h8 (hr i j)) hb

example : (mul ⟨8, false⟩ (R := 2) (K := 2) (C := 2) ![.two 200 3, .two 255 1] ![.two 2 1, .two 3 5]).map memory = some [143, 7, 83, 14] ∧
    (mul ⟨32, true⟩ (R := 2) (K := 2) (C := 1) ![.two 200 3, .two 255 1] ![.two 2 (-1)]).map memory = some [145, 5] := by
  decide +kernel

/-- Unsigned numbers: the matrix of `60000` times that of `50000` is `3000000000`, which is an `unsigned`, as are all intermediate results;
the product is undefined. -/
theorem C144_unsigned_violated : ∃ l r : Mat ℤ 2 2, (∀ i j, (⟨32, false⟩ : Ty).Has (entry l i j)) ∧ (∀ i j, (⟨32, false⟩ : Ty).Has (entry r i j)) ∧
    (∀ i j, (⟨32, false⟩ : Ty).Has ((asMatrix l * asMatrix r) i j)) ∧ mul ⟨32, false⟩ l r = none := by
  refine ⟨![.two 60000 0, .two 0 1], ![.two 50000 0, .two 0 1], ?_, ?_, ?_, ?_⟩
  · decide +kernel
  · decide +kernel
  · decide +kernel
  · decide +kernel

/-- The determinant of up to four rows is exact if the sum of all products of entries of at most `M` is less than `2^31` (or `2^(bits - 1)` for
wider types). -/
theorem C144_determinant_partial (t : Ty) {n : ℕ} (hn : 0 < n) (h4 : n ≤ 4) (m : Mat ℤ n n) (M : ℤ) (hm : ∀ i j, |entry m i j| ≤ M)
    (h : n.factorial * M ^ n < 2 ^ (max t.bits 32 - 1)) (hM : 1 ≤ M) : determinant t m = some (asMatrix m).det := by
  change _ < bound t at h
  set E : ℕ → ℕ → ℤ := fun r c => if h : r < n ∧ c < n then entry m ⟨r, h.1⟩ ⟨c, h.2⟩ else 0 with hE
  have hb : ∀ r c, |E r c| ≤ M := by
    intro r c
    simp only [hE]
    split_ifs
    · exact hm _ _
    · simp; omega
  have hMb : M < bound t := by
    have h1 : M ^ 1 ≤ M ^ n := pow_le_pow_right₀ hM hn
    have h2 : (1 : ℤ) ≤ n.factorial := by exact_mod_cast Nat.factorial_pos n
    have h3 : 0 ≤ M ^ n := pow_nonneg (by omega) n
    nlinarith
  have hg : ∀ (r c : ℕ) (_ : r < n) (_ : c < n), matGet t m r c = some (E r c) := by
    intro r c hr hc
    unfold matGet
    rw [((C143_access m).1 ⟨r, hr⟩ ⟨c, hc⟩).1]
    simp only [hE]
    rw [dif_pos ⟨hr, hc⟩]
    exact congrArg some (conv_of ((hm _ _).trans_lt hMb))
  have hA : ∀ r c : Fin n, asMatrix m r c = E r c := by
    intro r c
    simp only [hE]
    rw [dif_pos ⟨r.2, c.2⟩]
    rfl
  unfold determinant
  clear_value E
  match n, hn, h4, m, hg, hA with
  | 1, _, _, m, hg, hA =>
    dsimp only
    rw [hg 0 0 (by omega) (by omega)]
    simp only [Option.bind_eq_bind, Option.bind_some]
    rw [conv_of ((hb 0 0).trans_lt hMb), Matrix.det_fin_one, hA]
    rfl
  | 2, _, _, m, hg, hA =>
    simp only [Nat.factorial] at h
    obtain ⟨f, a⟩ := raw2 (m := m) (r0 := 0) (r1 := 1) (c0 := 0) (c1 := 1) hb h hM (fun r hr c hc => hg r c (by simp at hr; omega) (by simp at hc; omega))
    dsimp only
    rw [f]
    simp only [Option.bind_eq_bind, Option.bind_some]
    rw [conv_of (a.trans_lt h), Matrix.det_fin_two]
    simp only [hA]
    rfl
  | 3, _, _, m, hg, hA =>
    simp only [Nat.factorial] at h
    obtain ⟨f, a⟩ := raw3 (m := m) (r0 := 0) (r1 := 1) (r2 := 2) (c0 := 0) (c1 := 1) (c2 := 2) hb h hM
      (fun r hr c hc => hg r c (by simp at hr; omega) (by simp at hc; omega))
    dsimp only
    rw [f]
    simp only [Option.bind_eq_bind, Option.bind_some]
    rw [conv_of (a.trans_lt h), Matrix.det_fin_three]
    simp only [hA, D3, D2]
    exact congrArg some (by simp; ring)
  | 4, _, _, m, hg, hA =>
    simp only [Nat.factorial] at h
    obtain ⟨f, a⟩ := raw4 (m := m) (r0 := 0) (r1 := 1) (r2 := 2) (r3 := 3) (c0 := 0) (c1 := 1) (c2 := 2) (c3 := 3) hb h hM
      (fun r hr c hc => hg r c (by simp at hr; omega) (by simp at hc; omega))
    dsimp only
    rw [f]
    simp only [Option.bind_eq_bind, Option.bind_some]
    rw [conv_of (a.trans_lt h), show asMatrix m = Matrix.of fun r c : Fin 4 => E r c from funext fun r => funext fun c => hA r c]
    simp only [D4, D3, D2]
    refine congrArg some ?_
    rw [Matrix.det_succ_row_zero]
    simp [Fin.sum_univ_succ, Matrix.det_fin_three, Fin.succAbove]
    ring

/-- For bytes and up to three rows the determinant is always exact. -/
theorem C144_byte_determinant (t : Ty) (ht : 0 < t.bits) (h8 : t.bits ≤ 8) {n : ℕ} (hn : 0 < n) (h3 : n ≤ 3) (m : Mat ℤ n n)
    (hm : ∀ i j, t.Has (entry m i j)) : determinant t m = some (asMatrix m).det := by
  refine C144_determinant_partial t hn (by omega) m 255 (fun i j => byte_abs ht h8 (hm i j)) ?_ (by norm_num)
  rw [show max t.bits 32 = 32 by omega]
  interval_cases n <;> norm_num [Nat.factorial]

example : determinant ⟨32, true⟩ (n := 3) ![.three 2 0 1, .three 1 3 0, .three 0 5 7] = some 47 ∧
    determinant ⟨8, false⟩ (n := 2) ![.two 2 255, .two 255 1] = some (-65023) := by
  decide +kernel

/-- But for a matrix of four rows of bytes, with `255` in the diagonal, it is undefined. -/
theorem C144_determinant_violated : (∀ i j, (⟨8, false⟩ : Ty).Has (entry (R := 4) (C := 4) ![.four 255 0 0 0, .four 0 255 0 0, .four 0 0 255 0, .four 0 0 0 255] i j)) ∧
    determinant ⟨8, false⟩ (n := 4) ![.four 255 0 0 0, .four 0 255 0 0, .four 0 0 255 0, .four 0 0 0 255] = none := by
  decide +kernel

/-- And the determinant of the `unsigned` matrix of the one entry `3000000000` is `-1294967296`. -/
theorem C144_determinant_sign_violated : (∀ i j, (⟨32, false⟩ : Ty).Has (entry (R := 1) (C := 1) ![.one 3000000000] i j)) ∧
    determinant ⟨32, false⟩ (n := 1) ![.one 3000000000] = some (-1294967296) := by
  decide +kernel

end Verif.Props.IntMatrix
