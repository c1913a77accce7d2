import Verif.Props.FloatCross
import Verif.Props.MatrixStore
import Mathlib.Data.Matrix.Mul
/-!
# C154: products of floating-point matrices and vectors
-/
namespace Verif.Props.FloatMatrix
open Verif.Spec.Parts Verif.Spec.IeeeArith Verif.Spec.FloatFormat Verif.Spec.Representable Verif.Model.VectorStore Verif.Model.FloatVector
open Verif.Model.FloatProducts Verif.Model.MatrixStore Verif.Proofs.VectorStore Verif.Proofs.FloatVector Verif.Proofs.FloatProducts
open Verif.Proofs.MatrixStore
open Verif.Props.FloatVector (num)
open Verif.Props.FloatCross (Values)

/-- What the entries of a matrix are. -/
def Entries {R C : ℕ} (m : Mat Number R C) (A : Matrix (Fin R) (Fin C) ℚ) : Prop :=
  ∀ (r : Fin R) (c : Fin C), (lookup m r c).bind value = some (A r c)

/-- The bound of the error of a sum of `n` products of which the magnitudes have the sum `s`. -/
def Bound (f : Format) (n : ℕ) (s : ℚ) : ℚ := ((1 + f.u) ^ n - 1) * s + n * f.tiny * (1 + f.u) ^ (n - 1)

theorem index_values {n : ℕ} {v : Store Number n} {q : Fin n → ℚ} (h : Values v q) (i : Fin n) : (index v i).bind value = some (q i) := by
  rw [index_parts v i i.2, ← component_parts]
  exact h i

theorem values_at {n : ℕ} {v : Store Number n} {q : Fin n → ℚ} (h : ∀ i, value (at_ v i) = some (q i)) : Values v q := by
  intro i
  rw [component_parts, List.getElem?_eq_getElem (by rw [parts_length]; exact i.2)]
  exact h i

theorem tabulate_values {n : ℕ} (hn : 0 < n) (g : ℕ → Option Number) (P : Fin n → ℚ → Prop)
    (h : ∀ i : Fin n, ∃ r z, g i = some r ∧ value r = some z ∧ P i z) :
    ∃ v q, tabulate n g = some v ∧ Values v q ∧ ∀ i, P i (q i) := by
  choose r z h1 h2 h3 using h
  obtain ⟨v, hv, ha⟩ := tabulate_at hn g r h1
  exact ⟨v, z, hv, values_at fun i => by rw [ha]; exact h2 i, h3⟩

theorem gather_entries {R C : ℕ} (hR : 0 < R) (g : ℕ → ℕ → Option Number) (P : Fin R → Fin C → ℚ → Prop)
    (h : ∀ (r : Fin R) (c : Fin C), ∃ x z, g r c = some x ∧ value x = some z ∧ P r c z) :
    ∃ (m : Mat Number R C) (A : Matrix (Fin R) (Fin C) ℚ), (gather fun c : Fin C => tabulate R fun r => g r c) = some m ∧ Entries m A ∧
      ∀ r c, P r c (A r c) := by
  have := fun c : Fin C => tabulate_values hR (fun r => g r c) (fun r z => P r c z) (fun r => h r c)
  choose v q h1 h2 h3 using this
  refine ⟨v, fun r c => q c r, gather_some _ v h1, fun r c => ?_, fun r c => h3 c r⟩
  unfold lookup
  rw [dif_pos ⟨r.2, c.2⟩]
  exact index_values (h2 c) r

/-- The product of two matrices: the error of each entry is at most the sum of the magnitudes of its `K` products times `(1 + u) ^ K - 1`,
and, for underflow, half of the least number for each product, whichever products are contracted with additions, if nothing overflows.
For every shape, so the unrolled cases too. -/
theorem C154_product (f : Format) {R K C : ℕ} (hR : 0 < R) (hK : 0 < K) (k : ℕ → ℕ → ℕ → Bool) (hk : ∀ r c, Chosen K (k r c))
    (l : Mat Number R K) (r : Mat Number K C) (A : Matrix (Fin R) (Fin K) ℚ) (B : Matrix (Fin K) (Fin C) ℚ) (hl : Entries l A) (hr : Entries r B)
    (hs : ∀ i j, ∑ x, |A i x * B x j| + Bound f K (∑ x, |A i x * B x j|) ≤ f.greatest) :
    ∃ s S, mul f k l r = some s ∧ Entries s S ∧ ∀ i j, |S i j - (A * B) i j| ≤ Bound f K (∑ x, |A i x * B x j|) := by
  unfold mul
  refine gather_entries hR (fun i j => sumOfProducts f K (k i j) (fun x => lookup l i x) (fun x => lookup r x j)) (fun i j z => |z - (A * B) i j| ≤ Bound f K (∑ x, |A i x * B x j|)) fun i j => ?_
  exact sum_err f hK (k i j) (hk _ _) _ _ (fun x => A i x) (fun x => B x j) (fun x => hl i x) (fun x => hr x j) (by
    have := hs i j
    unfold Bound at this
    linarith)

/-- Compound assignment gives the product, also of a matrix and itself. -/
theorem C154_assign (f : Format) {n : ℕ} (k : ℕ → ℕ → ℕ → Bool) (l r : Mat Number n n) :
    mulAssign f k l (.other r) = mul f k l r ∧ mulAssign f k l .itself = mul f k l l := ⟨rfl, rfl⟩

/-- The same of a matrix and a column. -/
theorem C154_column (f : Format) {R C : ℕ} (hR : 0 < R) (k : ℕ → ℕ → Bool) (hk : ∀ r, Chosen C (k r)) (m : Mat Number R C) (v : Store Number C)
    (A : Matrix (Fin R) (Fin C) ℚ) (x : Fin C → ℚ) (hm : Entries m A) (hv : Values v x)
    (hs : ∀ i, ∑ j, |A i j * x j| + Bound f C (∑ j, |A i j * x j|) ≤ f.greatest) :
    ∃ s y, mulVec f k m v = some s ∧ Values s y ∧ ∀ i, |y i - A.mulVec x i| ≤ Bound f C (∑ j, |A i j * x j|) := by
  unfold mulVec
  refine tabulate_values hR _ (fun i z => |z - A.mulVec x i| ≤ Bound f C (∑ j, |A i j * x j|)) fun i => ?_
  exact sum_err f (pos v) (k i) (hk _) _ _ (fun j => A i j) x (fun j => hm i j) (index_values hv) (by
    have := hs i
    unfold Bound at this
    linarith)

/-- The same of a row and a matrix. -/
theorem C154_row (f : Format) {R C : ℕ} (hC : 0 < C) (k : ℕ → ℕ → Bool) (hk : ∀ c, Chosen R (k c)) (v : Store Number R) (m : Mat Number R C)
    (x : Fin R → ℚ) (A : Matrix (Fin R) (Fin C) ℚ) (hv : Values v x) (hm : Entries m A)
    (hs : ∀ j, ∑ i, |x i * A i j| + Bound f R (∑ i, |x i * A i j|) ≤ f.greatest) :
    ∃ s y, vecMul f k v m = some s ∧ Values s y ∧ ∀ j, |y j - A.vecMul x j| ≤ Bound f R (∑ i, |x i * A i j|) := by
  unfold vecMul
  refine tabulate_values hC _ (fun j z => |z - A.vecMul x j| ≤ Bound f R (∑ i, |x i * A i j|)) fun j => ?_
  exact sum_err f (pos v) (k j) (hk _) _ _ x (fun i => A i j) (index_values hv) (fun i => hm i j) (by
    have := hs j
    unfold Bound at this
    linarith)

/-- Two matrices of `float` and a vector. -/
def ml : Mat Number 2 2 := ![.two (num 1) (num 2), .two (num (1 / 4)) (num (-3))]
def mr : Mat Number 2 2 := ![.two (num 5) (num (-1)), .two (num 0) (num 7)]
def mv : Store Number 2 := .two (num 3) (num (-2))

theorem ml_entries : Entries ml !![1, 1 / 4; 2, -3] := by
  intro r c; fin_cases r <;> fin_cases c <;> decide +kernel
theorem mr_entries : Entries mr !![5, 0; -1, 7] := by
  intro r c; fin_cases r <;> fin_cases c <;> decide +kernel
theorem mv_values : Values mv ![3, -2] := by intro i; fin_cases i <;> decide +kernel

example : ∃ s S, mul binary32 (fun _ _ i => i = 1) ml mr = some s ∧ Entries s S ∧ |S 1 0 - 13| ≤ Bound binary32 2 13 := by
  obtain ⟨s, S, h1, h2, h3⟩ := C154_product binary32 (by omega) (by omega) (fun _ _ i => i = 1) (by simp [Chosen]) ml mr _ _ ml_entries mr_entries
    (by decide +kernel)
  refine ⟨s, S, h1, h2, ?_⟩
  have := h3 1 0
  norm_num [Matrix.mul_apply, Fin.sum_univ_two] at this
  exact this

example : ∃ s y, mulVec binary32 (fun _ i => i = 0) ml mv = some s ∧ Values s y ∧ |y 1 - 12| ≤ Bound binary32 2 12 := by
  obtain ⟨s, y, h1, h2, h3⟩ := C154_column binary32 (by omega) (fun _ i => i = 0) (by simp [Chosen]) ml mv _ _ ml_entries mv_values
    (by decide +kernel)
  refine ⟨s, y, h1, h2, ?_⟩
  have := h3 1
  norm_num [Matrix.mulVec, dotProduct, Fin.sum_univ_two] at this
  exact this

example : ∃ s y, vecMul binary32 (fun _ i => i = 0) mv ml = some s ∧ Values s y ∧ |y 0 - (-1)| ≤ Bound binary32 2 7 := by
  obtain ⟨s, y, h1, h2, h3⟩ := C154_row binary32 (by omega) (fun _ i => i = 0) (by simp [Chosen]) mv ml _ _ mv_values ml_entries
    (by decide +kernel)
  refine ⟨s, y, h1, h2, ?_⟩
  have := h3 0
  norm_num [Matrix.vecMul, dotProduct, Fin.sum_univ_two] at this ⊢
  exact this

/-- Where all products and all sums of the first products are numbers of the format, the product is exact. -/
theorem C154_exact (f : Format) (hp : 1 ≤ f.p) {R K C : ℕ} (hR : 0 < R) (hK : 0 < K) (k : ℕ → ℕ → ℕ → Bool) (l : Mat Number R K) (r : Mat Number K C)
    (A : Matrix (Fin R) (Fin K) ℚ) (B : Matrix (Fin K) (Fin C) ℚ) (hl : Entries l A) (hr : Entries r B)
    (h1 : ∀ i x j, Representable f (A i x * B x j))
    (h2 : ∀ i j (n : ℕ), Representable f (∑ x with x.val < n, A i x * B x j)) :
    ∃ s, mul f k l r = some s ∧ Entries s (A * B) := by
  have key := gather_entries hR (fun i j => sumOfProducts f K (k i j) (fun x => lookup l i x) (fun x => lookup r x j))
    (fun i j z => z = (A * B) i j) fun i j => ?_
  · obtain ⟨m, S, e1, e2, e3⟩ := key
    refine ⟨m, e1, ?_⟩
    have : S = A * B := by ext i j; exact e3 i j
    rwa [this] at e2
  · set a : ℕ → ℚ := fun x => if h : x < K then A i ⟨x, h⟩ else 0 with ha
    set b : ℕ → ℚ := fun x => if h : x < K then B ⟨x, h⟩ j else 0 with hb
    have sums : ∀ n ≤ K, ∑ x ∈ Finset.range n, a x * b x = ∑ x : Fin K with x.val < n, A i x * B x j := by
      intro n hn
      symm
      refine Finset.sum_bij (fun x _ => x.val) ?_ ?_ ?_ ?_
      · intro x hx; simpa using hx
      · intro x _ y _ h; exact Fin.ext h
      · intro x hx
        have hx' : x < n := by simpa using hx
        exact ⟨⟨x, by omega⟩, by simpa using hx', rfl⟩
      · intro x _; simp [ha, hb]
    obtain ⟨z, hz, vz⟩ := exact_sum hp hK (k i j) (fun x => lookup l i x) (fun x => lookup r x j) a b
      (fun x hx => by rw [ha]; simp only [dif_pos hx]; exact hl i ⟨x, hx⟩) (fun x hx => by rw [hb]; simp only [dif_pos hx]; exact hr ⟨x, hx⟩ j)
      (fun x hx => by rw [ha, hb]; simp only [dif_pos hx]; exact h1 _ _ _)
      (fun n hn => by rw [sums n hn]; exact h2 i j n)
    refine ⟨z, _, hz, vz, ?_⟩
    rw [sums K le_rfl, Matrix.mul_apply]
    apply Finset.sum_congr _ fun _ _ => rfl
    ext x
    simp

theorem int_rep (f : Format) (he : f.emin - f.p + 1 ≤ 0) (hg : 2 ^ f.p ≤ f.greatest) (z : ℤ) (hz : |z| < 2 ^ f.p) : Representable f z := by
  refine ⟨.fin (decide (z < 0)) |(z : ℚ)|, ⟨⟨z.natAbs, 0, ?_, he, ?_⟩, ?_⟩, ?_⟩
  · rw [← Int.natCast_natAbs] at hz; exact_mod_cast hz
  · rw [zpow_zero, mul_one, Nat.cast_natAbs]; simp
  · have : (|z| : ℚ) < 2 ^ f.p := by exact_mod_cast hz
    linarith
  · simp only [value]
    have := signed_abs (z : ℚ)
    simpa using this

/-- Products of matrices of integers are exact if the sums of `K` products of entries of at most `M` and `N` are below `2 ^ p`. -/
theorem C154_integers (f : Format) (hp : 1 ≤ f.p) (he : f.emin - f.p + 1 ≤ 0) (hg : 2 ^ f.p ≤ f.greatest) {R K C : ℕ} (hR : 0 < R) (hK : 0 < K)
    (k : ℕ → ℕ → ℕ → Bool) (l : Mat Number R K) (r : Mat Number K C) (A : Matrix (Fin R) (Fin K) ℤ) (B : Matrix (Fin K) (Fin C) ℤ)
    (hl : Entries l (A.map Int.cast)) (hr : Entries r (B.map Int.cast)) (M N : ℤ) (hA : ∀ i j, |A i j| ≤ M) (hB : ∀ i j, |B i j| ≤ N)
    (h : K * (M * N) < 2 ^ f.p) : ∃ s, mul f k l r = some s ∧ Entries s ((A * B).map Int.cast) := by
  have prod : ∀ i x j, |A i x * B x j| ≤ M * N := fun i x j => by
    rw [abs_mul]
    exact mul_le_mul (hA _ _) (hB _ _) (abs_nonneg _) ((abs_nonneg _).trans (hA i x))
  have sums : ∀ i j (n : ℕ), |∑ x with x.val < n, A i x * B x j| < 2 ^ f.p := by
    intro i j n
    refine lt_of_le_of_lt ?_ h
    refine (Finset.abs_sum_le_sum_abs _ _).trans ?_
    refine (Finset.sum_le_card_nsmul _ _ (M * N) fun x _ => prod i x j).trans ?_
    rw [nsmul_eq_mul]
    have c : (Finset.univ.filter fun x : Fin K => x.val < n).card ≤ K := by
      refine (Finset.card_filter_le _ _).trans ?_
      simp
    have n0 : 0 ≤ M * N := (abs_nonneg _).trans (prod i ⟨0, hK⟩ j)
    exact mul_le_mul_of_nonneg_right (by exact_mod_cast c) n0
  obtain ⟨s, h1, h2⟩ := C154_exact f hp hR hK k l r _ _ hl hr (fun i x j => by
    have := int_rep f he hg (A i x * B x j) (lt_of_le_of_lt (prod i x j) (by
      have n0 : 0 ≤ M * N := (abs_nonneg _).trans (prod i x j)
      have : (1 : ℤ) ≤ K := by exact_mod_cast hK
      nlinarith))
    push_cast at this
    exact this) (fun i j n => by
    have := int_rep f he hg _ (sums i j n)
    push_cast at this
    exact this)
  refine ⟨s, h1, ?_⟩
  have e : ((A * B).map Int.cast : Matrix (Fin R) (Fin C) ℚ) = A.map Int.cast * B.map Int.cast := by
    ext i j
    simp [Matrix.mul_apply]
  rw [e]
  exact h2

example : ∃ s, mul binary32 (fun _ _ _ => false) mr mr = some s ∧ Entries s ((!![5, 0; -1, 7] * !![5, 0; -1, 7] : Matrix (Fin 2) (Fin 2) ℤ).map Int.cast) :=
  C154_integers binary32 (by decide) (by decide) (by unfold binary32; norm_num) (by omega) (by omega) (fun _ _ _ => false) mr mr _ _
    (by intro r c; fin_cases r <;> fin_cases c <;> decide +kernel) (by intro r c; fin_cases r <;> fin_cases c <;> decide +kernel) 7 7
    (by decide) (by decide) (by decide)

/-- Multiplication by the identity matrix, from either side, changes nothing, whatever is contracted. -/
theorem C154_identity (f : Format) (hp : 1 ≤ f.p) (hg : 0 ≤ f.greatest) {R C : ℕ} (hR : 0 < R) (hC : 0 < C) (k : ℕ → ℕ → ℕ → Bool)
    (m : Mat Number R C) (A : Matrix (Fin R) (Fin C) ℚ) (hm : Entries m A) (hf : ∀ r c, Representable f (A r c)) :
    (∀ one : Mat Number R R, Entries one 1 → ∃ s, mul f k one m = some s ∧ Entries s A) ∧
    ∀ one : Mat Number C C, Entries one 1 → ∃ s, mul f k m one = some s ∧ Entries s A := by
  have f0 := rep_zero f hg
  constructor
  · intro one ho
    have := C154_exact f hp hR hR k one m 1 A ho hm (fun i x j => by
      rw [Matrix.one_apply]
      split_ifs
      · rw [one_mul]; exact hf _ _
      · rw [zero_mul]; exact f0) (fun i j n => by
      simp only [Matrix.one_apply, ite_mul, one_mul, zero_mul]
      rw [Finset.sum_ite_eq]
      split_ifs
      · exact hf _ _
      · exact f0)
    rwa [Matrix.one_mul] at this
  · intro one ho
    have := C154_exact f hp hR hC k m one A 1 hm ho (fun i x j => by
      rw [Matrix.one_apply]
      split_ifs
      · rw [mul_one]; exact hf _ _
      · rw [mul_zero]; exact f0) (fun i j n => by
      simp only [Matrix.one_apply, mul_ite, mul_one, mul_zero]
      rw [Finset.sum_ite_eq']
      split_ifs
      · exact hf _ _
      · exact f0)
    rwa [Matrix.mul_one] at this

example : ∃ s, mul binary32 (fun _ _ i => i = 1) (![.two (num 1) (num 0), .two (num 0) (num 1)] : Mat Number 2 2) mr = some s ∧ Entries s !![5, 0; -1, 7] := by
  refine (C154_identity binary32 (by decide) (by unfold binary32; norm_num) (by omega) (by omega) (fun _ _ i => i = 1) mr _ mr_entries ?_).1 _ ?_
  · have := int_rep binary32 (by decide) (by unfold binary32; norm_num)
    intro r c
    fin_cases r <;> fin_cases c
    · simpa using this 5 (by decide)
    · simpa using this 0 (by decide)
    · simpa using this (-1) (by decide)
    · simpa using this 7 (by decide)
  · intro r c; fin_cases r <;> fin_cases c <;> decide +kernel

/-- A 3x3, 3x4 or 4x4 matrix. -/
def Shape (R C : ℕ) : Prop := (R, C) ∈ [(3, 3), (3, 4), (4, 4)]

theorem shape_iff {R C : ℕ} : Shape R C ↔ (R = 3 ∨ R = 4) ∧ (C = 3 ∨ C = 4) ∧ R ≤ C := by
  simp only [Shape, List.mem_cons, Prod.mk.injEq, List.not_mem_nil, or_false]
  omega

/-- transform_without_translating: as a product with the 3x3 part. -/
theorem C154_without_translating (f : Format) {R C : ℕ} (hRC : Shape R C) (k : ℕ → ℕ → Bool) (hk : ∀ r, Chosen 3 (k r)) (m : Mat Number R C)
    (v : Store Number 3) (A : Matrix (Fin 3) (Fin 3) ℚ) (x : Fin 3 → ℚ) (hm : ∀ r c : Fin 3, (get m r c).bind value = some (A r c))
    (hv : Values v x) (hs : ∀ i, ∑ j, |A i j * x j| + Bound f 3 (∑ j, |A i j * x j|) ≤ f.greatest) :
    ∃ s y, transformWithoutTranslating f k m v = some s ∧ Values s y ∧ ∀ i, |y i - A.mulVec x i| ≤ Bound f 3 (∑ j, |A i j * x j|) := by
  unfold transformWithoutTranslating
  rw [if_pos (shape_iff.1 hRC)]
  refine tabulate_values (by omega) _ (fun i z => |z - A.mulVec x i| ≤ Bound f 3 (∑ j, |A i j * x j|)) fun i => ?_
  exact sum_err f (by omega) (k i) (hk _) _ _ (fun j => A i j) x (fun j => hm i j) hv (by
    have := hs i
    unfold Bound at this
    linarith)

theorem affine_err (f : Format) (hp : 1 ≤ f.p) {R C : ℕ} (k : ℕ → Bool) (hk : Chosen 3 k) (m : Mat Number R C) (r : ℕ) (v : Store Number 3)
    (a x : Fin 3 → ℚ) (t : ℚ) (hm : ∀ c : Fin 3, (get m r c).bind value = some (a c)) (ht : (get m r 3).bind value = some t) (hv : Values v x)
    (hs : ∑ j, |a j * x j| + |t| + Bound f 4 (∑ j, |a j * x j| + |t|) ≤ f.greatest) :
    ∃ s z, affine f k m r v = some s ∧ value s = some z ∧ Representable f z ∧
      |z - (∑ j, a j * x j + t)| ≤ Bound f 4 (∑ j, |a j * x j| + |t|) := by
  have n0 : 0 ≤ ∑ j, |a j * x j| := Finset.sum_nonneg fun _ _ => abs_nonneg _
  have nt := abs_nonneg t
  have mono := bound_mono f (k := 3) (l := 4) (P := ∑ j, |a j * x j|) (Q := ∑ j, |a j * x j| + |t|) (by omega) n0 (by linarith)
  obtain ⟨s, z, h1, h2, h3⟩ := sum_err f (by omega : 0 < 3) k hk (fun i => get m r i) (component v) a x hm hv (by
    unfold bound at mono
    unfold Bound at hs
    push_cast at *
    linarith)
  obtain ⟨b, b1, b2⟩ := Option.bind_eq_some_iff.1 ht
  have hS : |∑ j, a j * x j| ≤ ∑ j, |a j * x j| := Finset.abs_sum_le_sum_abs _ _
  have step := bound_step f (A := z) (S := ∑ j, a j * x j) (P := ∑ j, |a j * x j|) (q := t) (T := t) (Z := rd f (z + t)) (k := 3) (by omega) h3 hS
    (Or.inl ⟨rfl, err f _⟩)
  have fit : |rd f (z + t)| ≤ f.greatest := by
    have x1 := abs_add_le (rd f (z + t) - (∑ j, a j * x j + t)) (∑ j, a j * x j + t)
    rw [sub_add_cancel] at x1
    have x2 := abs_add_le (∑ j, a j * x j) t
    unfold bound at step
    unfold Bound at hs
    push_cast at *
    linarith
  have vr := value_round f (value_add h2 b2) fit
  refine ⟨Op.add.eval f s b, rd f (z + t), ?_, vr, ?_, step⟩
  · unfold affine
    rw [h1, b1]
    rfl
  · obtain ⟨m', k', e1, e2, e3⟩ := Proofs.Kahan.R_rd hp (z + t)
    have ab : Proofs.Kahan.R f |rd f (z + t)| := ⟨|m'|, k', by rwa [abs_abs], e2, by rw [e3, abs_mul, Int.cast_abs, abs_of_pos (by positivity : (0 : ℚ) < 2 ^ k')]⟩
    exact ⟨.fin (decide (rd f (z + t) < 0)) |rd f (z + t)|, Proofs.Approx.R_has hp (abs_nonneg _) ab fit, by
      simp only [value]; rw [signed_abs]⟩

/-- transform_position of 3x4 matrices, and 4x4 matrices with the last row `0 0 0 1`: a product with the 3x3 part and the sum with the last
column. -/
theorem C154_position (f : Format) (hp : 1 ≤ f.p) (he : f.emin - f.p + 1 ≤ 0) (hg : 1 ≤ f.greatest) {R : ℕ} (hRC : R = 3 ∨ R = 4)
    (k : ℕ → ℕ → Bool) (hk : ∀ r, Chosen 3 (k r)) (m : Mat Number R 4) (v : Store Number 3) (A : Matrix (Fin 3) (Fin 3) ℚ) (t x : Fin 3 → ℚ)
    (hm : ∀ r c : Fin 3, (get m r c).bind value = some (A r c)) (ht : ∀ r : Fin 3, (get m r 3).bind value = some (t r))
    (hw : R = 4 → (∀ c < 3, (get m 3 c).bind value = some 0) ∧ (get m 3 3).bind value = some 1)
    (hv : Values v x) (hs : ∀ i, ∑ j, |A i j * x j| + |t i| + Bound f 4 (∑ j, |A i j * x j| + |t i|) ≤ f.greatest) :
    ∃ s y, transformPosition f k m v = some s ∧ Values s y ∧
      ∀ i, |y i - (A.mulVec x i + t i)| ≤ Bound f 4 (∑ j, |A i j * x j| + |t i|) := by
  have v1 : value (.fin false 1) = some 1 := by simp [value, signed]
  have f1 := FloatCross.one_rep f hp he hg
  have f0 := rep_zero f (by linarith)
  have inv : ∃ w, invW f (k 3) m v = some w ∧ value w = some 1 := by
    rcases hRC with rfl | rfl
    · exact ⟨_, rfl, v1⟩
    · obtain ⟨w0, w1⟩ := hw rfl
      obtain ⟨b, b1, b2⟩ := Option.bind_eq_some_iff.1 w1
      obtain ⟨z, hz, vz⟩ := exact_sum hp (by omega : 0 < 3) (k 3) (fun i => get m 3 i) (component v) (fun _ => 0)
        (fun i => if h : i < 3 then x ⟨i, h⟩ else 0) w0 (fun i hi => by simp only [dif_pos hi]; exact hv ⟨i, hi⟩) (fun _ _ => by rw [zero_mul]; exact f0)
        (fun _ _ => by simpa using f0)
      simp only [zero_mul, Finset.sum_const_zero] at vz
      have ea : affine f (k 3) m 3 v = some (Op.add.eval f z b) := by
        unfold affine
        rw [hz, b1]
        rfl
      have va : value (Op.add.eval f z b) = some 1 := exact_round hp f1 (by have := value_add vz b2; rwa [zero_add] at this)
      refine ⟨Op.div.eval f (.fin false 1) (Op.add.eval f z b), by rw [invW, if_pos rfl, ea]; rfl, ?_⟩
      exact exact_round hp f1 (by have := value_div v1 va one_ne_zero; rwa [div_one] at this)
  obtain ⟨w, hw1, hw2⟩ := inv
  unfold transformPosition
  rw [if_pos (by omega), if_neg (by omega), hw1]
  simp only [Option.bind_eq_bind, Option.bind_some]
  refine tabulate_values (by omega) _ (fun i z => |z - (A.mulVec x i + t i)| ≤ Bound f 4 (∑ j, |A i j * x j| + |t i|)) fun i => ?_
  obtain ⟨s, z, h1, h2, h3, h4⟩ := affine_err f hp (k i) (hk _) m i v (A i) x (t i) (hm i) (ht i) hv (hs i)
  refine ⟨Op.mul.eval f w s, z, by rw [h1]; rfl, ?_, h4⟩
  exact exact_round hp h3 (by have := value_mul hw2 h2; rwa [one_mul] at this)

/-- transform_position of 3x3 matrices is the product of the matrix and the column. -/
theorem C154_position3 (f : Format) (k : ℕ → ℕ → Bool) (m : Mat Number 3 3) (v : Store Number 3) : transformPosition f k m v = mulVec f k m v := by
  unfold transformPosition mulVec
  rw [if_pos (by omega), if_pos rfl]

/-- A transformation by a 4x4 matrix of `float`. -/
def mt : Mat Number 4 4 := ![.four (num 1) (num 2) (num 0) (num 0), .four (num (1 / 4)) (num (-3)) (num 0) (num 0),
  .four (num 0) (num 0) (num 1) (num 0), .four (num 10) (num 20) (num 30) (num 1)]

example : ∃ s y, transformPosition binary32 (fun _ i => i = 2) mt (.three (num 1) (num 2) (num 3)) = some s ∧ Values s y ∧
    |y 1 - 16| ≤ Bound binary32 4 28 := by
  obtain ⟨s, y, h1, h2, h3⟩ := C154_position binary32 (by decide) (by decide) (by unfold binary32; norm_num) (Or.inr rfl) (fun _ i => i = 2)
    (by simp [Chosen]) mt (.three (num 1) (num 2) (num 3)) !![1, 1 / 4, 0; 2, -3, 0; 0, 0, 1] ![10, 20, 30] ![1, 2, 3]
    (by intro r c; fin_cases r <;> fin_cases c <;> decide +kernel) (by intro r; fin_cases r <;> decide +kernel)
    (by intro _; decide +kernel) (by intro r; fin_cases r <;> decide +kernel) (by decide +kernel)
  refine ⟨s, y, h1, h2, ?_⟩
  have := h3 1
  norm_num [Matrix.mulVec, dotProduct, Fin.sum_univ_three, show (![2, -3, 0] : Fin 3 → ℚ) 2 = 0 from rfl] at this
  exact this

example : ∃ s y, transformWithoutTranslating binary32 (fun _ i => i = 2) mt (.three (num 1) (num 2) (num 3)) = some s ∧ Values s y ∧
    |y 1 - (-4)| ≤ Bound binary32 3 8 := by
  obtain ⟨s, y, h1, h2, h3⟩ := C154_without_translating binary32 (by simp [Shape]) (fun _ i => i = 2)
    (by simp [Chosen]) mt (.three (num 1) (num 2) (num 3)) !![1, 1 / 4, 0; 2, -3, 0; 0, 0, 1] ![1, 2, 3]
    (by intro r c; fin_cases r <;> fin_cases c <;> decide +kernel) (by intro r; fin_cases r <;> decide +kernel) (by decide +kernel)
  refine ⟨s, y, h1, h2, ?_⟩
  have := h3 1
  norm_num [Matrix.mulVec, dotProduct, Fin.sum_univ_three, show (![2, -3, 0] : Fin 3 → ℚ) 2 = 0 from rfl] at this ⊢
  exact this

end Verif.Props.FloatMatrix
