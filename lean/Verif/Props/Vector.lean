import Mathlib.LinearAlgebra.Matrix.Determinant.Basic
import Verif.Proofs.Vector

/-!
# Vectors

Exact arithmetic: the scalars are an ordered commutative ring, or `ℝ` where square roots are taken.  The
specification is written with `∑` and elementary algebra.
-/

namespace Verif.Props.Vector

open Verif.Model.Vector Verif.Proofs.Vector

variable {K : Type*}

/-! ### C79: dot product, distance and length -/

/-- C79: `dot` is the sum of the products of the components, in every dimension. -/
theorem C79_dot [CommRing K] {n : ℕ} (v w : Fin n → K) : dot v w = ∑ i, v i * w i := dot_eq v w

/-- C79: `distance` is the Euclidean distance and a metric. -/
theorem C79_distance {n : ℕ} (p q r : Fin n → ℝ) :
    distance p q ^ 2 = ∑ i, (q i - p i) ^ 2 ∧ 0 ≤ distance p q ∧ (distance p q = 0 ↔ p = q) ∧
      distance p q = distance q p ∧ distance p r ≤ distance p q + distance q r := by
  have hns := lengthSquared_nonneg (fun i => q i - p i)
  refine ⟨?_, Real.sqrt_nonneg _, ?_, ?_, ?_⟩
  · rw [distance, distanceSquared, Real.sq_sqrt hns, lengthSquared_eq]
    exact Finset.sum_congr rfl fun i _ => (sq _).symm
  · rw [distance, distanceSquared, Real.sqrt_eq_zero hns, lengthSquared_eq_zero]
    constructor
    · intro h; funext i; have := congrFun h i; simp only [Pi.zero_apply] at this; linarith
    · rintro rfl; funext i; simp
  · rw [distance_eq, distance_eq, norm_sub_rev]
  · rw [distance_eq, distance_eq, distance_eq]
    calc ‖(WithLp.toLp 2 r : EuclideanSpace ℝ (Fin n)) - WithLp.toLp 2 p‖
        = ‖((WithLp.toLp 2 q : EuclideanSpace ℝ (Fin n)) - WithLp.toLp 2 p)
            + ((WithLp.toLp 2 r : EuclideanSpace ℝ (Fin n)) - WithLp.toLp 2 q)‖ := by congr 1; abel
      _ ≤ _ := norm_add_le _ _

/-- C79, dimensions other than one: `length` is the distance from the origin.  Missing: dimension one, where it is
not (`C79_length_violated`). -/
theorem C79_length_partial {n : ℕ} (hn : n ≠ 1) (v : Fin n → ℝ) :
    length v = distance 0 v ∧ length v ^ 2 = ∑ i, v i ^ 2 ∧ 0 ≤ length v ∧ (length v = 0 ↔ v = 0) := by
  have h1 : length v = distance 0 v := by
    rw [length_eq hn, distance, distanceSquared]; simp
  refine ⟨h1, ?_, ?_, ?_⟩
  · rw [length_eq hn, Real.sq_sqrt (lengthSquared_nonneg v), lengthSquared_eq]
    exact Finset.sum_congr rfl fun i _ => (sq _).symm
  · rw [length_eq hn]; exact Real.sqrt_nonneg _
  · rw [length_eq hn, Real.sqrt_eq_zero (lengthSquared_nonneg v), lengthSquared_eq_zero]

/-- C79 is violated in dimension one: the length of `{ x }` is `x`, negative for negative `x`, and then differs from
the distance to the origin. -/
theorem C79_length_violated (x : ℝ) (hx : x < 0) : length ![x] < 0 ∧ length ![x] ≠ distance 0 ![x] := by
  have h : length ![x] = x := rfl
  refine ⟨by rw [h]; exact hx, ?_⟩
  rw [h]
  exact ne_of_lt (lt_of_lt_of_le hx (Real.sqrt_nonneg _))

example : length ![(3 : ℝ), 4] = 5 := by
  rw [length_eq (by decide), lengthSquared_eq]
  simp only [Fin.sum_univ_two, Matrix.cons_val_zero, Matrix.cons_val_one]
  rw [show (3 * 3 + 4 * 4 : ℝ) = 5 ^ 2 by norm_num]
  exact Real.sqrt_sq (by norm_num)

/-! ### C80: normalization -/

/-- C80, dimensions other than one: normalizing a non-zero vector gives the vector of length one that points the same
way; the variant with an output parameter returns the same vector and reports the original length; normalizing with a
precomputed squared length agrees; `direction` is the normalized difference.  Missing: dimension one
(`C80_normalize_violated`). -/
theorem C80_normalize_partial {n : ℕ} (hn : n ≠ 1) (v : Fin n → ℝ) (hv : v ≠ 0) :
    length (normalizeV v) = 1 ∧ 0 < length v ∧ (∀ i, v i = length v * normalizeV v i) ∧
      normalizeOut v = (normalizeV v, length v) ∧ normalizeLensq v (lengthSquared v) = normalizeV v ∧
      (∀ p q : Fin n → ℝ, (∀ i, q i = p i + v i) → direction p q = normalizeV v) := by
  have h0 : lengthSquared v ≠ 0 := fun h => hv ((lengthSquared_eq_zero v).mp h)
  have hp : 0 < lengthSquared v := lt_of_le_of_ne (lengthSquared_nonneg v) (Ne.symm h0)
  have hl : 0 < length v := by rw [length_eq hn]; exact Real.sqrt_pos.mpr hp
  refine ⟨?_, hl, ?_, normalizeOut_eq hn v, ?_, ?_⟩
  · rw [length_eq hn, normalize_length hn v hv, Real.sqrt_one]
  · intro i
    rw [normalize_eq hn]
    field_simp
  · rw [normalize_eq hn, length_eq hn]; rfl
  · intro p q h
    rw [direction]
    congr 1
    funext i
    rw [h i]; ring

/-- C80 is violated in dimension one: every vector normalizes to `{ 1 }`, so a negative one is turned around, and the
output parameter receives a negative length. -/
theorem C80_normalize_violated (x : ℝ) (hx : x < 0) :
    (¬ ∃ c : ℝ, 0 < c ∧ ∀ i, ![x] i = c * normalizeV ![x] i) ∧ (normalizeOut ![x]).2 < 0 := by
  refine ⟨?_, hx⟩
  rintro ⟨c, hc, h⟩
  have := h 0
  have h1 : normalizeV ![x] 0 = 1 := rfl
  rw [h1] at this
  simp at this
  linarith

/-- C80: with a floating-point scalar, `normalized` accepts exactly the vectors whose squared length is within the
tolerance of one; in particular every result of `normalize`. -/
theorem C80_normalized_float {n : ℕ} (eps : ℝ) (v : Fin n → ℝ) :
    (normalizedFloat eps v = true ↔ |1 - ∑ i, v i ^ 2| < eps) ∧
      (0 < eps → n ≠ 1 → v ≠ 0 → normalizedFloat eps (normalizeV v) = true) := by
  constructor
  · rw [normalizedFloat, lengthSquared_eq, decide_eq_true_iff]
    simp only [sq]
  · intro he hn hv
    rw [normalizedFloat, normalize_length hn v hv]
    simpa using he

/-- C80, one-dimensional integral vectors: `normalized` is true exactly of `{ 1 }`.  Missing: every other dimension
(`C80_normalized_int_violated`). -/
theorem C80_normalized_int_partial (v : Fin 1 → ℤ) : normalizedInt v = true ↔ v 0 = 1 := by
  rw [normalizedInt]; simp

/-- C80 is violated for integral vectors: from two dimensions on `normalized` is false of every vector, also of those of
length one. -/
theorem C80_normalized_int_violated {n : ℕ} (hn : 2 ≤ n) :
    (∀ v : Fin n → ℤ, normalizedInt v = false) ∧ ∃ v : Fin n → ℤ, ∑ i, v i ^ 2 = 1 ∧ normalizedInt v = false := by
  have h : ∀ v : Fin n → ℤ, normalizedInt v = false := by
    intro v
    unfold normalizedInt
    split
    · omega
    · cases List.ofFn v <;> rfl
  refine ⟨h, Pi.single ⟨0, by omega⟩ 1, ?_, h _⟩
  rw [Finset.sum_eq_single (⟨0, by omega⟩ : Fin n)]
  · simp
  · intro b _ hb; rw [Pi.single_eq_of_ne hb]; rfl
  · intro hb; exact absurd (Finset.mem_univ _) hb

example : normalizedInt ![(0 : ℤ), 1, 0] = false := by decide

/-! ### C81: cross product and orthogonal vectors -/

/-- C81: `cross` is the vector product: its inner product with any vector is the determinant of the three.  Hence it is
perpendicular to both factors, antisymmetric, and satisfies Lagrange's identity. -/
theorem C81_cross [CommRing K] (u v w : Fin 3 → K) :
    dot u (cross v w) = (Matrix.of ![u, v, w]).det ∧ dot v (cross v w) = 0 ∧ dot w (cross v w) = 0 ∧
      (∀ i, cross v w i = - cross w v i) ∧
      dot (cross v w) (cross v w) = dot v v * dot w w - dot v w ^ 2 := by
  refine ⟨?_, ?_, ?_, ?_, ?_⟩
  · rw [Matrix.det_fin_three, dot_eq, Fin.sum_univ_three]; simp [cross]; ring
  · rw [dot_eq, Fin.sum_univ_three]; simp [cross]; ring
  · rw [dot_eq, Fin.sum_univ_three]; simp [cross]; ring
  · intro i; fin_cases i <;> simp [cross] <;> ring
  · simp only [dot_eq, Fin.sum_univ_three]; simp [cross]; ring

/-- C81: the overloads for a principal axis agree with the general product, and the axes are right-handed. -/
theorem C81_cross_axis [CommRing K] (v : Fin 3 → K) (i : Fin 3) :
    crossAxisRight v i = cross v (axis i) ∧ crossAxisLeft v i = cross (axis i) v ∧
      cross (axis 0 : Fin 3 → K) (axis 1) = axis 2 := by
  refine ⟨?_, ?_, ?_⟩
  · fin_cases i <;> funext j <;> fin_cases j <;> simp [crossAxisRight, cross, axis]
  · fin_cases i <;> funext j <;> fin_cases j <;> simp [crossAxisLeft, cross, axis]
  · funext j; fin_cases j <;> simp [cross, axis]

/-- C81: `orthogonal` of a non-zero vector is a non-zero vector perpendicular to it. -/
theorem C81_orthogonal [CommRing K] [LinearOrder K] [IsStrictOrderedRing K] (v : Fin 3 → K) (hv : v ≠ 0) :
    orthogonal v ≠ 0 ∧ dot v (orthogonal v) = 0 := by
  refine ⟨?_, (C81_cross v v _).2.1⟩
  intro h
  have h0 := congrFun h 0
  have h1 := congrFun h 1
  have h2 := congrFun h 2
  simp only [orthogonal] at h0 h1 h2
  have n0 := abs_nonneg (v 0)
  have n1 := abs_nonneg (v 1)
  have n2 := abs_nonneg (v 2)
  split_ifs at h0 h1 h2 with c1 c2 c3 <;> simp [cross, axis] at h0 h1 h2
  · rw [h2, abs_zero] at c1; linarith
  · rw [h0, abs_zero] at c1; linarith
  · rw [h0, abs_zero] at c3; linarith
  · rw [h1, abs_zero] at c1
    push Not at c1 c3
    have e1 : v 1 = 0 := h0
    have e2 : v 2 = 0 := by
      rw [e1, abs_zero] at c3
      exact abs_eq_zero.mp (le_antisymm c3 n2)
    apply hv
    funext i
    fin_cases i
    · exact h1
    · exact e1
    · exact e2

example : orthogonal ![(3 : ℚ), -1, 2] = ![-2, 0, 3] := by decide +kernel

/-! ### C82: minimum, maximum, clamping, interpolation, angle -/

/-- C82: `min` and `max` of a non-empty collection are the greatest lower and least upper bound, component by
component, whichever overload is used; of an empty one they are zero. -/
theorem C82_min_max [CommRing K] [LinearOrder K] {n : ℕ} (vs : List (Fin n → K)) (hvs : vs ≠ []) (i : Fin n) :
    minInit vs = minRange vs ∧ maxInit vs = maxRange vs ∧
    (∀ v ∈ vs, minRange vs i ≤ v i) ∧ (∃ v ∈ vs, minRange vs i = v i) ∧
    (∀ v ∈ vs, v i ≤ maxRange vs i) ∧ (∃ v ∈ vs, maxRange vs i = v i) := by
  have hmin : ∀ (l : List (Fin n → K)) (a : Fin n → K),
      (∀ v ∈ a :: l, l.foldl Verif.Model.Vector.min a i ≤ v i) ∧
        ∃ v ∈ a :: l, l.foldl Verif.Model.Vector.min a i = v i := by
    intro l
    induction l with
    | nil => intro a; simp
    | cons b l ih =>
      intro a
      obtain ⟨h1, v, hv, h2⟩ := ih (Verif.Model.Vector.min a b)
      have hm : Verif.Model.Vector.min a b i = Min.min (a i) (b i) := smin_eq _ _
      refine ⟨?_, ?_⟩
      · intro w hw
        have hmb := h1 _ List.mem_cons_self
        rw [hm] at hmb
        rcases List.mem_cons.mp hw with rfl | hw
        · exact hmb.trans (min_le_left _ _)
        · rcases List.mem_cons.mp hw with rfl | hw
          · exact hmb.trans (min_le_right _ _)
          · exact h1 w (List.mem_cons_of_mem _ hw)
      · rcases List.mem_cons.mp hv with rfl | hv
        · rcases min_choice (a i) (b i) with h | h
          · exact ⟨a, by simp, by rw [List.foldl_cons, h2, hm, h]⟩
          · exact ⟨b, by simp, by rw [List.foldl_cons, h2, hm, h]⟩
        · exact ⟨v, List.mem_cons_of_mem _ (List.mem_cons_of_mem _ hv), h2⟩
  have hmax : ∀ (l : List (Fin n → K)) (a : Fin n → K),
      (∀ v ∈ a :: l, v i ≤ l.foldl Verif.Model.Vector.max a i) ∧
        ∃ v ∈ a :: l, l.foldl Verif.Model.Vector.max a i = v i := by
    intro l
    induction l with
    | nil => intro a; simp
    | cons b l ih =>
      intro a
      obtain ⟨h1, v, hv, h2⟩ := ih (Verif.Model.Vector.max a b)
      have hm : Verif.Model.Vector.max a b i = Max.max (a i) (b i) := smax_eq _ _
      refine ⟨?_, ?_⟩
      · intro w hw
        have hmb := h1 _ List.mem_cons_self
        rw [hm] at hmb
        rcases List.mem_cons.mp hw with rfl | hw
        · exact (le_max_left _ _).trans hmb
        · rcases List.mem_cons.mp hw with rfl | hw
          · exact (le_max_right _ _).trans hmb
          · exact h1 w (List.mem_cons_of_mem _ hw)
      · rcases List.mem_cons.mp hv with rfl | hv
        · rcases max_choice (a i) (b i) with h | h
          · exact ⟨a, by simp, by rw [List.foldl_cons, h2, hm, h]⟩
          · exact ⟨b, by simp, by rw [List.foldl_cons, h2, hm, h]⟩
        · exact ⟨v, List.mem_cons_of_mem _ (List.mem_cons_of_mem _ hv), h2⟩
  cases vs with
  | nil => exact absurd rfl hvs
  | cons a l =>
    refine ⟨?_, ?_, (hmin l a).1, (hmin l a).2, (hmax l a).1, (hmax l a).2⟩
    · match l with
      | [] => rfl
      | [b] => rfl
      | b :: c :: l => rfl
    · match l with
      | [] => rfl
      | [b] => rfl
      | b :: c :: l => rfl

theorem C82_min_max_empty [CommRing K] [LinearOrder K] {n : ℕ} (i : Fin n) :
    minInit ([] : List (Fin n → K)) i = 0 ∧ maxInit ([] : List (Fin n → K)) i = 0 ∧
      minRange ([] : List (Fin n → K)) i = 0 ∧ maxRange ([] : List (Fin n → K)) i = 0 := ⟨rfl, rfl, rfl, rfl⟩

/-- C82: `clamp` returns the point of the box nearest to the argument in every component: it lies in the box, leaves
the points of the box alone, and no point of the box is nearer. -/
theorem C82_clamp [CommRing K] [LinearOrder K] [IsStrictOrderedRing K] {n : ℕ} (v low high : Fin n → K)
    (h : ∀ i, low i ≤ high i) (i : Fin n) :
    (low i ≤ clamp v low high i ∧ clamp v low high i ≤ high i) ∧
      (low i ≤ v i → v i ≤ high i → clamp v low high i = v i) ∧
      (∀ x, low i ≤ x → x ≤ high i → |clamp v low high i - v i| ≤ |x - v i|) := by
  have hi := h i
  simp only [clamp]
  unfold sclamp
  refine ⟨?_, ?_, ?_⟩
  · split_ifs with c1 c2
    · exact ⟨le_refl _, hi⟩
    · exact ⟨hi, le_refl _⟩
    · exact ⟨not_lt.mp c1, not_lt.mp c2⟩
  · intro h1 h2
    rw [if_neg (not_lt.mpr h1), if_neg (not_lt.mpr h2)]
  · intro x hx1 hx2
    split_ifs with c1 c2
    · rw [abs_of_pos (by linarith), abs_of_pos (by linarith)]; linarith
    · rw [abs_of_neg (by linarith), abs_of_neg (by linarith)]; linarith
    · simp

/-- C82: `lerp` starts at the start, ends at the finish, and moves along the straight segment. -/
theorem C82_lerp [CommRing K] {n : ℕ} (a b : Fin n → K) (t : K) :
    lerp a b 0 = a ∧ lerp a b 1 = b ∧ ∀ i, lerp a b t i = a i + t * (b i - a i) := by
  refine ⟨?_, ?_, ?_⟩
  · funext i; simp [lerp]
  · funext i; simp [lerp]
  · intro i; simp [lerp]; ring

/-- C82: `angle` is the angle between two vectors: it lies in `[0, π]`, is symmetric, and its cosine times the lengths is
the inner product; it is zero when one of the vectors is zero. -/
theorem C82_angle {n : ℕ} (hn : n ≠ 1) (v w : Fin n → ℝ) :
    0 ≤ angle v w ∧ angle v w ≤ Real.pi ∧ angle v w = angle w v ∧
      (v ≠ 0 → w ≠ 0 → Real.cos (angle v w) * (length v * length w) = ∑ i, v i * w i) ∧
      (v = 0 ∨ w = 0 → angle v w = 0) := by
  have hlv := C79_length_partial hn v
  have hlw := C79_length_partial hn w
  have hdc : dot v w = dot w v := by
    rw [dot_eq, dot_eq]; exact Finset.sum_congr rfl fun i _ => mul_comm _ _
  have hcs : |dot v w| ≤ length v * length w := by
    rw [length_eq hn, length_eq hn]; exact cauchy v w
  have hcl : length v * length w ≠ 0 → sclamp (dot v w / (length v * length w)) (-1) 1
      = dot v w / (length v * length w) := by
    intro h0
    have hp : 0 < length v * length w := lt_of_le_of_ne (mul_nonneg hlv.2.2.1 hlw.2.2.1) (Ne.symm h0)
    have hb := abs_le.mp hcs
    unfold sclamp
    rw [if_neg, if_neg]
    · rw [not_lt, div_le_one hp]; exact hb.2
    · rw [not_lt, le_div_iff₀ hp]; linarith [hb.1]
  refine ⟨?_, ?_, ?_, ?_, ?_⟩
  · unfold angle; simp only; split_ifs
    · exact le_refl _
    · exact Real.arccos_nonneg _
  · unfold angle; simp only; split_ifs
    · exact Real.pi_pos.le
    · exact Real.arccos_le_pi _
  · unfold angle; simp only; rw [mul_comm (length v), hdc]
  · intro hv hw
    have h0 : length v * length w ≠ 0 :=
      mul_ne_zero (fun h => hv (hlv.2.2.2.mp h)) (fun h => hw (hlw.2.2.2.mp h))
    have hp : 0 < length v * length w := lt_of_le_of_ne (mul_nonneg hlv.2.2.1 hlw.2.2.1) (Ne.symm h0)
    have hb := abs_le.mp hcs
    unfold angle; simp only
    rw [if_neg h0, hcl h0, Real.cos_arccos, div_mul_cancel₀ _ h0, dot_eq]
    · rw [le_div_iff₀ hp]; linarith [hb.1]
    · rw [div_le_one hp]; exact hb.2
  · rintro (rfl | rfl)
    · unfold angle; simp only; rw [if_pos]; rw [hlv.2.2.2.mpr rfl, zero_mul]
    · unfold angle; simp only; rw [if_pos]; rw [hlw.2.2.2.mpr rfl, mul_zero]

example : minInit [![(3 : ℤ), 5], ![4, 1], ![7, 2]] = ![3, 1] ∧ maxInit [![(3 : ℤ), 5], ![4, 1], ![7, 2]] = ![7, 5] := by
  decide

example : clamp ![(3 : ℤ), 5, -2] ![0, 0, 0] ![4, 4, 4] = ![3, 4, 0] := by decide

end Verif.Props.Vector
