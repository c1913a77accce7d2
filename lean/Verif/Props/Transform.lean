import Verif.Proofs.Transform

/-!
# Transformation matrices

The specification is Mathlib's: `Matrix.mulVec`, the special orthogonal group (rotations), triangular matrices.
`part33 m` is the upper-left `3x3` part.
-/

namespace Verif.Props.Transform

open Verif.Model.Matrix Verif.Model.Vector Verif.Model.Transform Verif.Proofs.Matrix Verif.Proofs.Vector
  Verif.Proofs.Transform

variable {K : Type*}

/-- The upper-left `3x3` part of a matrix. -/
def part33 {R C : ℕ} (hR : 3 ≤ R) (hC : 3 ≤ C) (m : Mat K R C) : Matrix (Fin 3) (Fin 3) K :=
  Matrix.of fun i j => m (Fin.castLE hR i) (Fin.castLE hC j)

/-! ### C83: transforming positions and directions -/

/-- C83: a `3x4` matrix acts on positions as linear part plus translation column, a `3x3` matrix linearly, and
`transform_without_translating` is the linear part for every size. -/
theorem C83_affine [Field K] (m33 : Mat K 3 3) (m34 : Mat K 3 4) (p : Fin 3 → K) (i : Fin 3) :
    transformPosition33 m33 p i = (Matrix.of m33).mulVec p i ∧
    transformPosition34 m34 p i = (part33 (by decide) (by decide) m34).mulVec p i + m34 i 3 := by
  refine ⟨?_, ?_⟩
  · rw [transformPosition33, mulVec_eq]
  · rw [pos34_eq]; rfl

theorem C83_without_translating [CommRing K] {R C : ℕ} (hR : 3 ≤ R) (hC : 3 ≤ C) (m : Mat K R C) (d : Fin 3 → K) :
    transformWithoutTranslating hR hC m d = (part33 hR hC m).mulVec d := by
  funext i; rw [without_eq]; rfl

/-- C83: a `4x4` matrix acts on homogeneous coordinates: the image of `(p, 1)` is a multiple of `(q, 1)`, where `q` is
the transformed position. -/
theorem C83_homogeneous [Field K] (m : Mat K 4 4) (p : Fin 3 → K)
    (hw : (Matrix.of m).mulVec ![p 0, p 1, p 2, 1] 3 ≠ 0) :
    (Matrix.of m).mulVec ![p 0, p 1, p 2, 1]
      = (Matrix.of m).mulVec ![p 0, p 1, p 2, 1] 3 • ![transformPosition44 m p 0, transformPosition44 m p 1,
          transformPosition44 m p 2, 1] := by
  have hW : (Matrix.of m).mulVec ![p 0, p 1, p 2, 1] 3 = transformW m p := by
    simp [Matrix.mulVec, dotProduct, Fin.sum_univ_four, transformW]
  rw [hW] at hw ⊢
  funext i
  fin_cases i <;>
    simp [Matrix.mulVec, dotProduct, Fin.sum_univ_four, transformPosition44]
  · field_simp
  · field_simp
  · field_simp
  · rfl

/-- C83: transforming by a product is transforming by the right factor, then by the left one. -/
theorem C83_compose [Field K] (a b : Mat K 4 4) (p : Fin 3 → K) (hb : transformW b p ≠ 0)
    (hab : transformW (mul a b) p ≠ 0) :
    transformPosition44 (mul a b) p = transformPosition44 a (transformPosition44 b p) := by
  have hq : transformW (mul a b) p = transformW b p * transformW a (transformPosition44 b p) := by
    rw [mul_eq]
    simp only [transformW, pos44_eq]
    simp only [transformW] at hb
    simp only [Matrix.mul_apply, Fin.sum_univ_four, Fin.sum_univ_three]
    simp
    field_simp
    ring
  have ha : transformW a (transformPosition44 b p) ≠ 0 := by
    intro h; rw [h, mul_zero] at hq; exact hab hq
  funext i
  rw [pos44_eq, pos44_eq a, hq, div_eq_div_iff (mul_ne_zero hb ha) ha]
  rw [mul_eq]
  simp only [pos44_eq b]
  generalize transformW a (transformPosition44 b p) = w at *
  have hb' := hb
  simp only [transformW] at hb' ⊢
  simp only [Matrix.mul_apply, Fin.sum_univ_four, Fin.sum_univ_three]
  fin_cases i <;> simp <;> field_simp <;> ring

/-- C83: scale matrices multiply each component, translation matrices add the offset, and the latter do not affect
`transform_without_translating`; for both sizes that have a translation column. -/
theorem C83_scale_translation [Field K] (x y z : K) (p : Fin 3 → K) :
    (transformPosition33 (from3dScale 3 3 x y z) p = ![x * p 0, y * p 1, z * p 2] ∧
     transformPosition34 (from3dScale 3 4 x y z) p = ![x * p 0, y * p 1, z * p 2] ∧
     transformPosition44 (from3dScale 4 4 x y z) p = ![x * p 0, y * p 1, z * p 2]) ∧
    (transformPosition34 (from3dTranslation 3 4 x y z) p = ![p 0 + x, p 1 + y, p 2 + z] ∧
     transformPosition44 (from3dTranslation 4 4 x y z) p = ![p 0 + x, p 1 + y, p 2 + z]) ∧
    (transformWithoutTranslating (by decide) (by decide) (from3dTranslation 3 4 x y z) p = p ∧
     transformWithoutTranslating (by decide) (by decide) (from3dTranslation 4 4 x y z) p = p) := by
  refine ⟨⟨?_, ?_, ?_⟩, ⟨?_, ?_⟩, ?_, ?_⟩
  · rw [transformPosition33]
    funext i; fin_cases i <;> simp [mulVec, from3dScale, setAt, identity]
  · funext i; fin_cases i <;> simp [transformPosition34, from3dScale, setAt, identity]
  · funext i; fin_cases i <;> simp [transformPosition44, transformW, from3dScale, setAt, identity]
  · funext i; fin_cases i <;> simp [transformPosition34, from3dTranslation, setAt, identity]
  · funext i; fin_cases i <;> simp [transformPosition44, transformW, from3dTranslation, setAt, identity]
  · funext i; fin_cases i <;> simp [transformWithoutTranslating, from3dTranslation, setAt, identity]
  · funext i; fin_cases i <;> simp [transformWithoutTranslating, from3dTranslation, setAt, identity]

/-- C83: the two-dimensional constructors act on the first two coordinates. -/
theorem C83_2d [CommRing K] (x y : K) (p : Fin 2 → K) :
    mulVec (from2dScale 2 2 x y) p = ![x * p 0, y * p 1] ∧
    mulVec (from2dScale 3 3 x y) ![p 0, p 1, 1] = ![x * p 0, y * p 1, 1] ∧
    mulVec (from2dTranslation 2 3 x y) ![p 0, p 1, 1] = ![p 0 + x, p 1 + y] ∧
    mulVec (from2dTranslation 3 3 x y) ![p 0, p 1, 1] = ![p 0 + x, p 1 + y, 1] := by
  refine ⟨?_, ?_, ?_, ?_⟩
  · rw [mulVec_eq]
    funext i; fin_cases i <;> simp [Matrix.mulVec, dotProduct, Fin.sum_univ_succ, from2dScale, setAt, identity]
  · rw [mulVec_eq]
    funext i; fin_cases i <;> simp [Matrix.mulVec, dotProduct, Fin.sum_univ_succ, from2dScale, setAt, identity]
  · rw [mulVec_eq]
    funext i; fin_cases i <;> simp [Matrix.mulVec, dotProduct, Fin.sum_univ_succ, from2dTranslation, setAt, identity]
  · rw [mulVec_eq]
    funext i; fin_cases i <;> simp [Matrix.mulVec, dotProduct, Fin.sum_univ_succ, from2dTranslation, setAt, identity]

/-- C83: `transform_direction` keeps the length of the vector and gives it the direction of its image under the linear
part. -/
theorem C83_direction {R C : ℕ} (hR : 3 ≤ R) (hC : 3 ≤ C) (m : Mat ℝ R C) (d : Fin 3 → ℝ)
    (hd : (part33 hR hC m).mulVec d ≠ 0) :
    length (transformDirection hR hC m d) = length d ∧
      ∃ c : ℝ, 0 < c ∧ transformDirection hR hC m d = c • (part33 hR hC m).mulVec d := by
  have hd0 : d ≠ 0 := by
    rintro rfl; exact hd (Matrix.mulVec_zero _)
  rw [← C83_without_translating] at hd ⊢
  set e := transformWithoutTranslating hR hC m d with he
  have hn : (3 : ℕ) ≠ 1 := by decide
  have hld : 0 < length d := by
    rw [length_eq hn]
    exact Real.sqrt_pos.mpr (lt_of_le_of_ne (lengthSquared_nonneg d)
      (Ne.symm fun h => hd0 ((lengthSquared_eq_zero d).mp h)))
  have hle : 0 < length e := by
    rw [length_eq hn]
    exact Real.sqrt_pos.mpr (lt_of_le_of_ne (lengthSquared_nonneg e)
      (Ne.symm fun h => hd ((lengthSquared_eq_zero e).mp h)))
  refine ⟨?_, length d / length e, div_pos hld hle, ?_⟩
  · have h1 := normalize_length hn e hd
    have : lengthSquared (transformDirection hR hC m d) = length d ^ 2 := by
      have h2 : lengthSquared (transformDirection hR hC m d)
          = length d ^ 2 * lengthSquared (normalizeV e) := by
        simp only [lengthSquared, dot3, transformDirection, ← he]; ring
      rw [h2, h1, mul_one]
    rw [length_eq hn, this, Real.sqrt_sq hld.le]
  · funext i
    simp only [transformDirection, ← he, Pi.smul_apply, smul_eq_mul]
    rw [normalize_eq hn]
    field_simp

/-- C83: the scale extracted from a rotation times a scale is the scale (its absolute values). -/
theorem C83_extract_scale (q : Matrix (Fin 3) (Fin 3) ℝ) (hq : q ∈ Matrix.orthogonalGroup (Fin 3) ℝ) (x y z : ℝ) :
    extract3dScale (by decide) (by decide) (mul (fun i j => q i j) (from3dScale 3 3 x y z)) = ![|x|, |y|, |z|] := by
  have hn : (3 : ℕ) ≠ 1 := by decide
  have h := (Matrix.mem_orthogonalGroup_iff' (Fin 3) ℝ).mp hq
  have hcol : ∀ j, q 0 j * q 0 j + q 1 j * q 1 j + q 2 j * q 2 j = 1 := by
    intro j
    have := congrFun (congrFun h j) j
    simpa [Matrix.mul_apply, Fin.sum_univ_three] using this
  have hlen : ∀ (s : ℝ) (j : Fin 3), length ![q 0 j * s, q 1 j * s, q 2 j * s] = |s| := by
    intro s j
    rw [length_eq hn, ← Real.sqrt_sq_eq_abs]
    congr 1
    rw [lengthSquared, dot3]
    simp
    have := hcol j
    calc _ = s ^ 2 * (q 0 j * q 0 j + q 1 j * q 1 j + q 2 j * q 2 j) := by ring
      _ = s ^ 2 := by rw [this, mul_one]
  rw [← hlen x 0, ← hlen y 1, ← hlen z 2]
  rw [mul_eq]
  simp [extract3dScale, Matrix.mul_apply, Fin.sum_univ_three, from3dScale, setAt, identity]

/-- C83: and in two dimensions. -/
theorem C83_extract_scale_2d (q : Matrix (Fin 2) (Fin 2) ℝ) (hq : q ∈ Matrix.orthogonalGroup (Fin 2) ℝ) (x y : ℝ) :
    extract2dScale (by decide) (by decide) (mul (fun i j => q i j) (from2dScale 2 2 x y)) = ![|x|, |y|] := by
  have hn : (2 : ℕ) ≠ 1 := by decide
  have h := (Matrix.mem_orthogonalGroup_iff' (Fin 2) ℝ).mp hq
  have hcol : ∀ j, q 0 j * q 0 j + q 1 j * q 1 j = 1 := by
    intro j
    have := congrFun (congrFun h j) j
    simpa [Matrix.mul_apply, Fin.sum_univ_two] using this
  have hlen : ∀ (s : ℝ) (j : Fin 2), length ![q 0 j * s, q 1 j * s] = |s| := by
    intro s j
    rw [length_eq hn, ← Real.sqrt_sq_eq_abs]
    congr 1
    rw [lengthSquared, dot_eq]
    simp
    have := hcol j
    calc _ = s ^ 2 * (q 0 j * q 0 j + q 1 j * q 1 j) := by ring
      _ = s ^ 2 := by rw [this, mul_one]
  rw [← hlen x 0, ← hlen y 1]
  rw [mul_eq]
  simp [extract2dScale, Matrix.mul_apply, Fin.sum_univ_two, from2dScale, setAt, identity]

example : transformPosition44 (mul (from3dTranslation 4 4 1 2 3) (from3dScale 4 4 (2 : ℚ) 3 4)) ![1, 1, 1]
    = ![3, 5, 7] := by
  decide +kernel

/-! ### C84: rotation parts and orthonormalization -/

/-- C84: the rotation constructors copy the rotation part and complete it like the identity, whatever the sizes. -/
theorem C84_from_rotation [CommRing K] {R C R' C' : ℕ} (hR : 3 ≤ R) (hC : 3 ≤ C)
    (hs : (R' = 3 ∧ C' = 3) ∨ (R' = 3 ∧ C' = 4) ∨ (R' = 4 ∧ C' = 4)) (m : Mat K R C) (i : Fin R') (j : Fin C') :
    from3dRotation R' C' m i j =
      if h : i.1 < 3 ∧ j.1 < 3 then m ⟨i.1, by omega⟩ ⟨j.1, by omega⟩ else if i.1 = j.1 then 1 else 0 := by
  have r0 : 0 < R := by omega
  have c0 : 0 < C := by omega
  have r1 : 1 < R := by omega
  have c1 : 1 < C := by omega
  have r2 : 2 < R := by omega
  have c2 : 2 < C := by omega
  rcases hs with ⟨rfl, rfl⟩ | ⟨rfl, rfl⟩ | ⟨rfl, rfl⟩ <;> fin_cases i <;> fin_cases j <;>
    simp [from3dRotation, setAt, resize, ite_apply, r0, c0, r1, c1, r2, c2] <;> 
    first | (split_ifs <;> first | rfl | (exfalso; omega)) | (intros; omega)

/-- C84: the two-dimensional constructor likewise. -/
theorem C84_from_rotation_2d [CommRing K] {R C R' C' : ℕ} (hR : 2 ≤ R) (hC : 2 ≤ C)
    (hs : (R' = 2 ∧ C' = 2) ∨ (R' = 2 ∧ C' = 3) ∨ (R' = 3 ∧ C' = 3)) (m : Mat K R C) (i : Fin R') (j : Fin C') :
    from2dRotation R' C' m i j =
      if h : i.1 < 2 ∧ j.1 < 2 then m ⟨i.1, by omega⟩ ⟨j.1, by omega⟩ else if i.1 = j.1 then 1 else 0 := by
  have r0 : 0 < R := by omega
  have c0 : 0 < C := by omega
  have r1 : 1 < R := by omega
  have c1 : 1 < C := by omega
  rcases hs with ⟨rfl, rfl⟩ | ⟨rfl, rfl⟩ | ⟨rfl, rfl⟩ <;> fin_cases i <;> fin_cases j <;>
    simp [from2dRotation, setAt, resize, ite_apply, r0, c0, r1, c1] <;> 
    first | (split_ifs <;> first | rfl | (exfalso; omega)) | (intros; omega)

/-- C84: `orthonormalize` of a matrix whose `3x3` part is invertible gives the orthogonal factor of its QR
decomposition: orthonormal columns that differ from the given ones by an upper triangular matrix with positive
diagonal.  The rest of the matrix is unchanged. -/
theorem C84_orthonormalize {R C : ℕ} (hR : 3 ≤ R) (hC : 3 ≤ C) (m : Mat ℝ R C) (hm : (part33 hR hC m).det ≠ 0) :
    part33 hR hC (orthonormalize hR hC m) ∈ Matrix.orthogonalGroup (Fin 3) ℝ ∧
    (∃ t : Matrix (Fin 3) (Fin 3) ℝ, (∀ i, 0 < t i i) ∧ (∀ i j, j < i → t i j = 0) ∧
      part33 hR hC m = part33 hR hC (orthonormalize hR hC m) * t) ∧
    (∀ i j, ¬ (i.1 < 3 ∧ j.1 < 3) → orthonormalize hR hC m i j = m i j) := by
  set a := column3 hR m (Fin.castLE hC 0) with ha
  set b := column3 hR m (Fin.castLE hC 1) with hb
  set c := column3 hR m (Fin.castLE hC 2) with hc
  have ht : triple a b c ≠ 0 := by
    have : (part33 hR hC m).det = triple a b c := by
      rw [Matrix.det_fin_three]; simp only [part33, Matrix.of_apply, triple, ha, hb, hc, column3]
    rwa [this] at hm
  obtain ⟨o0, o1, o2, ho, u0, u1, u2, d01, d02, d12, t00, t01, t11, t02, t12, t22, p0, p1, p2, ea, eb, ec⟩ :=
    orthoAxes_spec a b c ht
  rw [dot3] at u0 u1 u2 d01 d02 d12
  have hp : part33 hR hC (orthonormalize hR hC m) = Matrix.of fun i j => ![o0, o1, o2] j i := by
    funext i j
    simp only [part33, Matrix.of_apply, orthonormalize, ← ha, ← hb, ← hc, ho]
    rw [dif_pos ⟨by simp, by simp⟩]
    rfl
  refine ⟨?_, ⟨!![t00, t01, t02; 0, t11, t12; 0, 0, t22], ?_, ?_, ?_⟩, ?_⟩
  · rw [hp, Matrix.mem_orthogonalGroup_iff']
    funext i j
    fin_cases i <;> fin_cases j <;> simp [Matrix.mul_apply, Fin.sum_univ_three] <;> linarith
  · intro i; fin_cases i <;> simp [p0, p1, p2]
  · intro i j hij; fin_cases i <;> fin_cases j <;> simp at hij ⊢
  · rw [hp]
    funext i j
    have e0 : part33 hR hC m i 0 = a i := rfl
    have e1 : part33 hR hC m i 1 = b i := rfl
    have e2 : part33 hR hC m i 2 = c i := rfl
    fin_cases j
    · simp only [Fin.zero_eta]; rw [e0, ea]; simp [Matrix.mul_apply, Fin.sum_univ_three]; ring
    · simp only [Fin.mk_one]; rw [e1, eb]; simp [Matrix.mul_apply, Fin.sum_univ_three]; ring
    · simp only [Fin.reduceFinMk]; rw [e2, ec]; simp [Matrix.mul_apply, Fin.sum_univ_three]; ring
  · intro i j hij
    simp only [orthonormalize]
    rw [dif_neg hij]

/-- C84: the handedness of the axes is kept: the determinant keeps its sign; and a matrix whose columns are already
orthonormal is unchanged. -/
theorem C84_orthonormalize_sign {R C : ℕ} (hR : 3 ≤ R) (hC : 3 ≤ C) (m : Mat ℝ R C)
    (hm : (part33 hR hC m).det ≠ 0) :
    0 < (part33 hR hC m).det * (part33 hR hC (orthonormalize hR hC m)).det := by
  obtain ⟨ho, ⟨t, ht, hu, he⟩, -⟩ := C84_orthonormalize hR hC m hm
  have hd : t.det = t 0 0 * t 1 1 * t 2 2 := by
    rw [Matrix.det_fin_three, hu 1 0 (by decide), hu 2 0 (by decide), hu 2 1 (by decide)]; ring
  have hpos : 0 < t.det := by
    rw [hd]; exact mul_pos (mul_pos (ht 0) (ht 1)) (ht 2)
  have hne : (part33 hR hC (orthonormalize hR hC m)).det ≠ 0 := by
    intro h; rw [he, Matrix.det_mul, h, zero_mul] at hm; exact hm rfl
  have h2 : (part33 hR hC m).det = (part33 hR hC (orthonormalize hR hC m)).det * t.det := by
    rw [← Matrix.det_mul, ← he]
  rw [h2]
  have := mul_pos (mul_self_pos.mpr hne) hpos
  linarith

theorem C84_orthonormalize_fixed {R C : ℕ} (hR : 3 ≤ R) (hC : 3 ≤ C) (m : Mat ℝ R C)
    (hm : part33 hR hC m ∈ Matrix.orthogonalGroup (Fin 3) ℝ) : orthonormalize hR hC m = m := by
  have h := (Matrix.mem_orthogonalGroup_iff' (Fin 3) ℝ).mp hm
  have hd : ∀ j k, dot (column3 hR m (Fin.castLE hC j)) (column3 hR m (Fin.castLE hC k)) = if j = k then 1 else 0 := by
    intro j k
    have := congrFun (congrFun h j) k
    rw [dot3]
    simpa [Matrix.mul_apply, Fin.sum_univ_three, part33, column3, Matrix.one_apply] using this
  have hs : ∀ u v w : Fin 3 → ℝ, dot v w = 0 → subtractDotMult u v w = u := by
    intro u v w h; funext i; rw [sdm, h]; ring
  have ho : orthoAxes (column3 hR m (Fin.castLE hC 0)) (column3 hR m (Fin.castLE hC 1))
      (column3 hR m (Fin.castLE hC 2)) = (column3 hR m (Fin.castLE hC 0), column3 hR m (Fin.castLE hC 1),
      column3 hR m (Fin.castLE hC 2)) := by
    simp only [orthoAxes]
    rw [columnNormalize_unit _ (by rw [hd]; simp), hs _ _ _ (by rw [hd]; simp), columnNormalize_unit _ (by rw [hd]; simp),
      hs (column3 hR m (Fin.castLE hC 2)) _ (column3 hR m (Fin.castLE hC 0)) (by rw [hd]; simp),
      hs _ _ _ (by rw [hd]; simp), columnNormalize_unit _ (by rw [hd]; simp)]
  funext i j
  simp only [orthonormalize, ho]
  by_cases h : i.1 < 3 ∧ j.1 < 3
  · rw [dif_pos h]
    obtain ⟨h1, h2⟩ := h
    have hk : ∀ k : Fin 3, ![column3 hR m (Fin.castLE hC 0), column3 hR m (Fin.castLE hC 1),
        column3 hR m (Fin.castLE hC 2)] k = column3 hR m (Fin.castLE hC k) := by
      intro k; fin_cases k <;> rfl
    rw [hk]
    rfl
  · rw [dif_neg h]

/-- C84: `orthonormalized` accepts the result for every positive tolerance. -/
theorem C84_orthonormalized {R C : ℕ} (hR : 3 ≤ R) (hC : 3 ≤ C) (m : Mat ℝ R C) (hm : (part33 hR hC m).det ≠ 0)
    (epsN eps : ℝ) (hN : 0 < epsN) (he : 0 < eps) :
    orthonormalized hR hC epsN eps (orthonormalize hR hC m) := by
  obtain ⟨ho, -, -⟩ := C84_orthonormalize hR hC m hm
  have h := (Matrix.mem_orthogonalGroup_iff' (Fin 3) ℝ).mp ho
  generalize orthonormalize hR hC m = m' at *
  have hd : ∀ j k, dot (column3 hR m' (Fin.castLE hC j)) (column3 hR m' (Fin.castLE hC k)) = if j = k then 1 else 0 := by
    intro j k
    have := congrFun (congrFun h j) k
    rw [dot3]
    simpa [Matrix.mul_apply, Fin.sum_univ_three, part33, column3, Matrix.one_apply] using this
  simp only [orthonormalized, lengthSquared]
  simp [hd, hN, he]

/-- C84: and it accepts only matrices whose columns are orthonormal up to the tolerances. -/
theorem C84_orthonormalized_iff {R C : ℕ} (hR : 3 ≤ R) (hC : 3 ≤ C) (m : Mat ℝ R C) (epsN eps : ℝ) :
    orthonormalized hR hC epsN eps m ↔
      (∀ j, |((part33 hR hC m).transpose * part33 hR hC m) j j - 1| < epsN) ∧
      (∀ j k, j ≠ k → |((part33 hR hC m).transpose * part33 hR hC m) j k| < eps) := by
  have hd : ∀ j k, ((part33 hR hC m).transpose * part33 hR hC m) j k
      = dot (column3 hR m (Fin.castLE hC j)) (column3 hR m (Fin.castLE hC k)) := by
    intro j k
    rw [dot3]
    simp [Matrix.mul_apply, Fin.sum_univ_three, part33, column3]
  have hc : ∀ u v : Fin 3 → ℝ, dot u v = dot v u := by intro u v; rw [dot3, dot3]; ring
  simp only [hd, orthonormalized, lengthSquared]
  constructor
  · rintro ⟨h1, h2, h3, h4, h5, h6⟩
    refine ⟨?_, ?_⟩
    · intro j; rw [abs_sub_comm]; fin_cases j <;> assumption
    · intro j k hjk
      fin_cases j <;> fin_cases k <;> first | exact absurd rfl hjk | assumption | (rw [hc]; assumption)
  · rintro ⟨h1, h2⟩
    have a0 := h1 0; have a1 := h1 1; have a2 := h1 2
    rw [abs_sub_comm] at a0 a1 a2
    exact ⟨a0, a1, a2, h2 0 1 (by decide), h2 0 2 (by decide), h2 1 2 (by decide)⟩

example : orthonormalize (by decide) (by decide) (fun i j : Fin 3 => if i = j then (2 : ℝ) else 0)
    ∈ {m : Mat ℝ 3 3 | ∀ i, m i i = 1} := by
  intro i
  have h4 : Real.sqrt (2 * 2) = 2 := Real.sqrt_mul_self (by norm_num)
  fin_cases i <;> simp [orthonormalize, orthoAxes, columnNormalize, subtractDotMult, column3, h4, Fin.castLE]

/-! ### C85: rotations from a direction -/

/-- C85: for every unit vector, `from_3d_direction` gives a rotation that takes the forward axis `(0, 0, -1)` to it, and
keeps the rest of the matrix as in the identity. -/
theorem C85_from_direction {R C : ℕ} (hR : 3 ≤ R) (hC : 3 ≤ C) (eps : ℝ) (h0 : 0 < eps) (h1 : eps < 1)
    (d : Fin 3 → ℝ) (hd : ∑ i, d i ^ 2 = 1) :
    part33 hR hC (from3dDirection R C eps d) ∈ Matrix.specialOrthogonalGroup (Fin 3) ℝ ∧
      (part33 hR hC (from3dDirection R C eps d)).mulVec ![0, 0, -1] = d := by
  have hn : (3 : ℕ) ≠ 1 := by decide
  rw [Fin.sum_univ_three] at hd
  -- the three axes
  obtain ⟨y, hy, hyz⟩ : ∃ y : Fin 3 → ℝ, (y = if |(-1) - d 1| < eps then ![0, 0, -1]
      else if |1 - d 1| < eps then ![0, 0, 1] else ![0, 1, 0]) ∧ cross y (fun i => -d i) ≠ 0 := by
    refine ⟨_, rfl, ?_⟩
    intro h
    have c0 := congrFun h 0; have c1 := congrFun h 1; have c2 := congrFun h 2
    split_ifs at c0 c1 c2 with k1 k2 <;> simp [cross] at c0 c1 c2
    · rw [c0] at k1; norm_num at k1; linarith
    · rw [c0] at k2; norm_num at k2; linarith
    · rw [c0, c2] at hd
      have : (d 1 - 1) * (d 1 + 1) = 0 := by nlinarith
      rcases mul_eq_zero.mp this with h | h
      · apply k2; rw [show d 1 = 1 by linarith]; simpa using h0
      · apply k1; rw [show d 1 = -1 by linarith]; simpa using h0
  have hx1 := normalize_length hn _ hyz
  set x := normalizeV (cross y (fun i => -d i)) with hx
  have hxe : ∃ k : ℝ, ∀ i, x i = k * cross y (fun i => -d i) i := by
    refine ⟨1 / length (cross y (fun i => -d i)), ?_⟩
    intro i; rw [hx, normalize_eq hn]; ring
  obtain ⟨k, hk⟩ := hxe
  have hxz : x 0 * d 0 + x 1 * d 1 + x 2 * d 2 = 0 := by
    rw [hk, hk, hk]; simp [cross]; ring
  rw [lengthSquared, dot3] at hx1
  have hw : cross (fun i => -d i) x 0 ^ 2 + cross (fun i => -d i) x 1 ^ 2 + cross (fun i => -d i) x 2 ^ 2 = 1 := by
    have : cross (fun i => -d i) x 0 ^ 2 + cross (fun i => -d i) x 1 ^ 2 + cross (fun i => -d i) x 2 ^ 2
        = (d 0 ^ 2 + d 1 ^ 2 + d 2 ^ 2) * (x 0 * x 0 + x 1 * x 1 + x 2 * x 2)
          - (x 0 * d 0 + x 1 * d 1 + x 2 * d 2) ^ 2 := by
      simp [cross]; ring
    rw [this, hd, hx1, hxz]; norm_num
  have hy' : normalizeV (cross (fun i => -d i) x) = cross (fun i => -d i) x := by
    rw [normalize_eq hn]
    have : length (cross (fun i => -d i) x) = 1 := by
      rw [length_eq hn, lengthSquared, dot3, ← sq, ← sq, ← sq, hw, Real.sqrt_one]
    rw [this]; funext i; simp
  have hp : part33 hR hC (from3dDirection R C eps d)
      = Matrix.of fun i j => ![x, cross (fun i => -d i) x, fun i => -d i] j i := by
    funext i j
    have hi : (Fin.castLE hR i).1 ≠ 3 := by have := i.2; simp; omega
    simp only [part33, Matrix.of_apply, from3dDirection, ← hy, ← hx, hy', fromAxes]
    have e : ofColumns3 R C x (cross (fun i => -d i) x) (fun i => -d i) (Fin.castLE hR i) (Fin.castLE hC j)
        = ![x, cross (fun i => -d i) x, fun i => -d i] j i := by
      simp only [ofColumns3]
      rw [dif_pos ⟨by simp, by simp⟩]
      rfl
    split_ifs
    · simp only [setAt]
      rw [if_neg (fun h => hi h.1), e]
    · exact e
  rw [hp]
  refine ⟨?_, ?_⟩
  · rw [Matrix.mem_specialOrthogonalGroup_iff, Matrix.mem_orthogonalGroup_iff']
    simp only [cross] at hw ⊢
    simp only [Matrix.cons_val_zero, Matrix.cons_val_one, Matrix.cons_val] at hw
    constructor
    · funext i j
      fin_cases i <;> fin_cases j <;> simp [Matrix.mul_apply, Fin.sum_univ_three] <;>
        linarith
    · rw [Matrix.det_fin_three]; simp
      nlinarith
  · funext i
    fin_cases i <;> simp [Matrix.mulVec, dotProduct, Fin.sum_univ_three]

/-- C85: outside the rotation part the matrix is the identity: it does not translate. -/
theorem C85_from_direction_rest {R C : ℕ} (hs : (R = 3 ∧ C = 3) ∨ (R = 3 ∧ C = 4) ∨ (R = 4 ∧ C = 4)) (eps : ℝ)
    (d : Fin 3 → ℝ) (i : Fin R) (j : Fin C) (h : ¬ (i.1 < 3 ∧ j.1 < 3)) :
    from3dDirection R C eps d i j = if i.1 = j.1 then 1 else 0 := by
  simp only [from3dDirection, fromAxes]
  rcases hs with ⟨rfl, rfl⟩ | ⟨rfl, rfl⟩ | ⟨rfl, rfl⟩ <;>
    fin_cases i <;> fin_cases j <;> simp [setAt, ofColumns3] at h ⊢

/-- C85: the rotation constants take the forward axis to the right, up, back, left and down axes, and are rotations. -/
theorem C85_constants {R C : ℕ} (hR : 3 ≤ R) (hC : 3 ≤ C) :
    (∀ m ∈ [rotRight R C, rotUp R C, rotBackward R C, rotLeft R C, rotDown (K := ℝ) R C],
      part33 hR hC m ∈ Matrix.specialOrthogonalGroup (Fin 3) ℝ) ∧
    (part33 hR hC (rotRight R C)).mulVec ![0, 0, -1] = ![(1 : ℝ), 0, 0] ∧
    (part33 hR hC (rotUp R C)).mulVec ![0, 0, -1] = ![(0 : ℝ), 1, 0] ∧
    (part33 hR hC (rotBackward R C)).mulVec ![0, 0, -1] = ![(0 : ℝ), 0, 1] ∧
    (part33 hR hC (rotLeft R C)).mulVec ![0, 0, -1] = ![(-1 : ℝ), 0, 0] ∧
    (part33 hR hC (rotDown R C)).mulVec ![0, 0, -1] = ![(0 : ℝ), -1, 0] := by
  have hp : ∀ xx yx zx xy yy zy xz yz zz : ℝ,
      part33 hR hC (makeRotationMatrix R C xx yx zx xy yy zy xz yz zz) = !![xx, yx, zx; xy, yy, zy; xz, yz, zz] := by
    intros
    funext i j
    fin_cases i <;> fin_cases j <;> simp [part33, makeRotationMatrix, setAt]
  refine ⟨?_, ?_, ?_, ?_, ?_, ?_⟩
  · intro m hm
    simp only [List.mem_cons, List.not_mem_nil, or_false] at hm
    rcases hm with rfl | rfl | rfl | rfl | rfl
    all_goals
      simp only [rotRight, rotUp, rotBackward, rotLeft, rotDown, hp]
      rw [Matrix.mem_specialOrthogonalGroup_iff, Matrix.mem_orthogonalGroup_iff']
      constructor
      · funext i j
        fin_cases i <;> fin_cases j <;> simp [Matrix.mul_apply, Fin.sum_univ_three]
      · rw [Matrix.det_fin_three]; simp
  all_goals
    simp only [rotRight, rotUp, rotBackward, rotLeft, rotDown, hp]
    funext i
    fin_cases i <;> simp [Matrix.mulVec, dotProduct, Fin.sum_univ_three]

/-! ### C86: perspective projection -/

/-- Specification.  The view frustum: the points in front of the viewer (`depth` is `-z` in a right-handed system, `z` in
a left-handed one) between the clipping planes and within the field of view. -/
def InFrustum (leftHanded : Bool) (fov aspect near far : ℝ) (p : Fin 3 → ℝ) : Prop :=
  let depth := if leftHanded then p 2 else -p 2
  near ≤ depth ∧ depth ≤ far ∧ |p 1| ≤ depth * Real.tan (fov / 2) ∧ |p 0| ≤ depth * (aspect * Real.tan (fov / 2))

/-- Specification.  The clip volume of the graphics API in normalized device coordinates. -/
def InClipVolume (opengl : Bool) (q : Fin 3 → ℝ) : Prop :=
  |q 0| ≤ 1 ∧ |q 1| ≤ 1 ∧ (if opengl then -1 else 0) ≤ q 2 ∧ q 2 ≤ 1

/-- Valid parameters. -/
structure Valid (fov aspect near far : ℝ) : Prop where
  fov_pos : 0 < fov
  fov_lt : fov < Real.pi
  aspect_pos : 0 < aspect
  near_pos : 0 < near
  near_lt : near < far

/-- C86, right-handed systems: a point in front of the viewer lies in the view frustum exactly when its projection lies
in the clip volume of the API; the near plane goes to depth `0` (DirectX) or `-1` (OpenGL), the far plane to `1`, and
depth grows with distance.  Missing: left-handed systems (`C86_left_handed_violated`). -/
theorem C86_perspective_partial (opengl : Bool) (fov aspect near far : ℝ) (hv : Valid fov aspect near far) :
    (∀ p : Fin 3 → ℝ, p 2 < 0 →
      (InFrustum false fov aspect near far p ↔
        InClipVolume opengl (transformPosition44 (perspective ⟨opengl, false⟩ fov aspect near far) p))) ∧
    (∀ x y, transformPosition44 (perspective ⟨opengl, false⟩ fov aspect near far) ![x, y, -near] 2
        = if opengl then -1 else 0) ∧
    (∀ x y, transformPosition44 (perspective ⟨opengl, false⟩ fov aspect near far) ![x, y, -far] 2 = 1) ∧
    (∀ p q : Fin 3 → ℝ, q 2 < p 2 → p 2 < 0 →
      transformPosition44 (perspective ⟨opengl, false⟩ fov aspect near far) p 2
        < transformPosition44 (perspective ⟨opengl, false⟩ fov aspect near far) q 2) := by
  obtain ⟨f0, f1, a0, n0, nf⟩ := hv
  have ht : 0 < Real.tan (fov / 2) := Real.tan_pos_of_pos_of_lt_pi_div_two (by linarith) (by linarith)
  have hff : 0 < far - near := by linarith
  have hfn : near - far ≠ 0 := by linarith
  have hfar : 0 < far := by linarith
  have e0 : ∀ p : Fin 3 → ℝ, transformPosition44 (perspective ⟨opengl, false⟩ fov aspect near far) p 0
      = p 0 / (-p 2 * (aspect * Real.tan (fov / 2))) := by
    intro p
    simp only [perspective]
    generalize Real.tan (fov / 2) = t at *
    cases opengl <;> simp [transformPosition44, transformW, ofScalars44, ofCols] <;> field_simp
  have e1 : ∀ p : Fin 3 → ℝ, transformPosition44 (perspective ⟨opengl, false⟩ fov aspect near far) p 1
      = p 1 / (-p 2 * Real.tan (fov / 2)) := by
    intro p
    simp only [perspective]
    generalize Real.tan (fov / 2) = t at *
    cases opengl <;> simp [transformPosition44, transformW, ofScalars44, ofCols] <;> field_simp
  have e2 : ∀ p : Fin 3 → ℝ, p 2 < 0 →
      transformPosition44 (perspective ⟨opengl, false⟩ fov aspect near far) p 2
      = if opengl then ((far + near) - 2 * far * near / (-p 2)) / (far - near)
        else far * (1 - near / (-p 2)) / (far - near) := by
    intro p hp
    have hp' : p 2 ≠ 0 := hp.ne
    cases opengl
    · simp [transformPosition44, transformW, perspective, ofScalars44, ofCols]
      rw [show near - far = -(far - near) by ring]
      field_simp
      ring
    · simp [transformPosition44, transformW, perspective, ofScalars44, ofCols]
      field_simp
      ring
  refine ⟨?_, ?_, ?_, ?_⟩
  · intro p hp
    have hz : 0 < -p 2 := by linarith
    simp only [InFrustum, InClipVolume, e0, e1, e2 p hp]
    have h1 : 0 < -p 2 * Real.tan (fov / 2) := mul_pos hz ht
    have h2 : 0 < -p 2 * (aspect * Real.tan (fov / 2)) := mul_pos hz (mul_pos a0 ht)
    rw [abs_div, abs_div, abs_of_pos h1, abs_of_pos h2, div_le_one h1, div_le_one h2]
    have hnear : (near ≤ -p 2) ↔ (if opengl then (-1 : ℝ) else 0) ≤
        (if opengl then ((far + near) - 2 * far * near / (-p 2)) / (far - near)
          else far * (1 - near / (-p 2)) / (far - near)) := by
      cases opengl
      · simp only [Bool.false_eq_true, if_false]
        rw [le_div_iff₀ hff, zero_mul, mul_nonneg_iff_of_pos_left hfar, sub_nonneg, div_le_one hz]
      · simp only [if_true]
        rw [le_div_iff₀ hff]
        have : 2 * far * near / (-p 2) = 2 * far * (near / (-p 2)) := by ring
        rw [this, ← div_le_one hz]
        constructor
        · intro h; nlinarith
        · intro h; nlinarith
    have hfar2 : (-p 2 ≤ far) ↔ (if opengl then ((far + near) - 2 * far * near / (-p 2)) / (far - near)
          else far * (1 - near / (-p 2)) / (far - near)) ≤ 1 := by
      have hk : (-p 2 ≤ far) ↔ near ≤ far * near / (-p 2) := by
        rw [le_div_iff₀ hz, mul_comm near, mul_le_mul_iff_left₀ n0]
      rw [hk]
      cases opengl
      · simp only [Bool.false_eq_true, if_false]
        rw [div_le_one hff]
        have : far * (1 - near / (-p 2)) = far - far * near / (-p 2) := by ring
        rw [this]
        constructor <;> intro h <;> linarith
      · simp only [if_true]
        rw [div_le_one hff]
        have : 2 * far * near / (-p 2) = 2 * (far * near / (-p 2)) := by ring
        rw [this]
        constructor <;> intro h <;> linarith
    simp only [Bool.false_eq_true, if_false]
    constructor
    · rintro ⟨a, b, c, d⟩; exact ⟨d, c, hnear.mp a, hfar2.mp b⟩
    · rintro ⟨a, b, c, d⟩; exact ⟨hnear.mpr c, hfar2.mpr d, b, a⟩
  · intro x y
    rw [e2 _ (by simpa using n0)]
    cases opengl <;> simp <;> field_simp
    · ring_nf; simp
    · ring
  · intro x y
    rw [e2 _ (by simpa using hfar)]
    cases opengl <;> simp <;> field_simp
    ring
  · intro p q hpq hp
    rw [e2 p hp, e2 q (by linarith)]
    have hz : 0 < -p 2 := by linarith
    have hk : near / (-q 2) < near / (-p 2) := div_lt_div_of_pos_left n0 hz (by linarith)
    cases opengl
    · simp only [Bool.false_eq_true, if_false]
      rw [div_lt_div_iff_of_pos_right hff]
      have := mul_lt_mul_of_pos_left hk hfar
      nlinarith
    · simp only [if_true]
      rw [div_lt_div_iff_of_pos_right hff]
      have := mul_lt_mul_of_pos_left hk hfar
      have e1 : 2 * far * near / (-p 2) = 2 * (far * (near / (-p 2))) := by ring
      have e2 : 2 * far * near / (-q 2) = 2 * (far * (near / (-q 2))) := by ring
      rw [e1, e2]; linarith

/-- C86 is violated in left-handed systems: with DirectX conventions the centre of the near plane falls outside the clip
volume; with OpenGL conventions the near plane goes to depth `1` and the far plane to `-1`, the wrong way round. -/
theorem C86_left_handed_violated (fov aspect near far : ℝ) (hv : Valid fov aspect near far) :
    (InFrustum true fov aspect near far ![0, 0, near] ∧
      ¬ InClipVolume false (transformPosition44 (perspective ⟨false, true⟩ fov aspect near far) ![0, 0, near])) ∧
    (transformPosition44 (perspective ⟨true, true⟩ fov aspect near far) ![0, 0, near] 2 = 1 ∧
      transformPosition44 (perspective ⟨true, true⟩ fov aspect near far) ![0, 0, far] 2 = -1) := by
  obtain ⟨f0, f1, a0, n0, nf⟩ := hv
  have ht : 0 < Real.tan (fov / 2) := Real.tan_pos_of_pos_of_lt_pi_div_two (by linarith) (by linarith)
  have hff : 0 < far - near := by linarith
  have hfar : 0 < far := by linarith
  refine ⟨⟨?_, ?_⟩, ?_, ?_⟩
  · refine ⟨le_refl _, nf.le, ?_, ?_⟩ <;> simp <;> positivity
  · rintro ⟨-, -, h, -⟩
    have e : transformPosition44 (perspective ⟨false, true⟩ fov aspect near far) ![0, 0, near] 2
        = -(2 * far / (far - near)) := by
      simp [transformPosition44, transformW, perspective, ofScalars44, ofCols]
      rw [show near - far = -(far - near) by ring]
      field_simp
      ring
    rw [e] at h
    simp only [Bool.false_eq_true, if_false] at h
    have : 0 < 2 * far / (far - near) := by positivity
    linarith
  · simp [transformPosition44, transformW, perspective, ofScalars44, ofCols]
    field_simp
    ring
  · simp [transformPosition44, transformW, perspective, ofScalars44, ofCols]
    field_simp
    ring

/-- C86: the overload taking a screen size agrees with the one taking the aspect ratio in the default mode.  Missing:
every other mode (`C86_screen_size_violated`). -/
theorem C86_screen_size_partial (fov w h near far : ℝ) :
    perspectiveScreen Mode.default fov ![w, h] near far = perspective Mode.default fov (w / h) near far := rfl

/-- C86 is violated by the overload taking a screen size: it ignores the requested mode. -/
theorem C86_screen_size_violated (fov w h near far : ℝ) (hv : Valid fov (w / h) near far) :
    perspectiveScreen ⟨true, false⟩ fov ![w, h] near far ≠ perspective ⟨true, false⟩ fov (w / h) near far := by
  intro he
  have h1 := (C86_perspective_partial true fov (w / h) near far hv).2.1 0 0
  have h2 := (C86_perspective_partial false fov (w / h) near far hv).2.1 0 0
  rw [← he] at h1
  have : perspectiveScreen ⟨true, false⟩ fov ![w, h] near far = perspective ⟨false, false⟩ fov (w / h) near far := rfl
  rw [this, h2] at h1
  norm_num at h1

example : Valid (Real.pi / 2) (16 / 9) 1 100 :=
  ⟨by positivity, by linarith [Real.pi_pos], by norm_num, by norm_num, by norm_num⟩

end Verif.Props.Transform
