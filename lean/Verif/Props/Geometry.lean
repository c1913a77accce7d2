import Verif.Proofs.Geometry

/-!
# Planes, line segments and triangles

The shapes are sets of points (`Verif/Spec/Geometry.lean`): a plane is `{x | n · x + d = 0}`, a segment is Mathlib's
`segment`, a triangle is the convex hull of its corners.
-/

namespace Verif.Props.Geometry

open Verif.Model.Matrix Verif.Model.Vector Verif.Model.Transform Verif.Model.Geometry
open Verif.Proofs.Vector Verif.Proofs.Transform Verif.Proofs.Geometry Verif.Spec.Geometry

/-! ### C94: planes -/

/-- C94: a plane made of a position and a direction is the set of points whose offset from the position is
perpendicular to the direction. -/
theorem C94_construct (pos dir x : Vec) :
    x ∈ planeSet (planeAt pos dir).normal (planeAt pos dir).d ↔ dir ⬝ᵥ (x - pos) = 0 := by
  rw [mem_plane, dp3]
  simp only [planeAt, dTerm, dot3, Pi.sub_apply]
  constructor <;> intro h <;> linarith

/-- C94: a plane made of three points that are not on one line has a unit normal and contains the points. -/
theorem C94_from_triangle (p0 p1 p2 : Vec) (h : Proper p0 p1 p2) :
    ∃ p, planeFromTriangle p0 p1 p2 = some p ∧ UnitVec p.normal ∧ p0 ∈ planeSet p.normal p.d ∧
      p1 ∈ planeSet p.normal p.d ∧ p2 ∈ planeSet p.normal p.d := by
  obtain ⟨n, hn, hu, k, -, -, hk⟩ := normalizeNaN_spec ((proper_iff _ _ _).mp h)
  refine ⟨planeAt p0 n, by rw [planeFromTriangle, triNormal, hn], hu, ?_, ?_, ?_⟩ <;>
  · rw [mem_plane]
    simp only [planeAt, dTerm, dot3, hk, cross3]
    ring

example : Proper ![0, 0, 0] ![1, 0, 0] ![0, 1, 0] := by
  unfold Proper
  intro h
  have := congrFun h 2
  simp [crossProduct, Matrix.vecHead, Matrix.vecTail] at this

/-- C94: `project` of a point is the nearest point of the plane, `distance` is the distance to it, and
`signed_distance` tells how far to walk along the normal from there. -/
theorem C94_project (p : Plane) (h : UnitVec p.normal) (x : Vec) :
    Nearest (planeSet p.normal p.d) x (p.project x) ∧ p.distance x = eDist x (p.project x) ∧
      x = p.project x + p.signedDistance x • p.normal := by
  refine ⟨?_, ?_, ?_⟩
  · rw [nearest_iff]
    exact ⟨project_mem p h x, fun y hy => by rw [project_dist p h]; exact plane_far p h x y hy⟩
  · rw [eDist, project_dist p h, Real.sqrt_sq_eq_abs]; rfl
  · funext i; simp [Plane.project]; ring

/-- C94: projecting a segment projects both its ends. -/
theorem C94_project_segment (p : Plane) (h : UnitVec p.normal) (a b : Vec) :
    Nearest (planeSet p.normal p.d) a (p.projectSegment (a, b)).1 ∧
      Nearest (planeSet p.normal p.d) b (p.projectSegment (a, b)).2 :=
  ⟨(C94_project p h a).1, (C94_project p h b).1⟩

/-- C94: `origin` is the point of the plane nearest to the coordinate origin. -/
theorem C94_origin (p : Plane) (h : UnitVec p.normal) : Nearest (planeSet p.normal p.d) 0 p.origin := by
  have : p.origin = p.project 0 := by
    funext i; simp [Plane.origin, Plane.project, sd3]
  rw [this]
  exact (C94_project p h 0).1

/-- C94: `contains` holds exactly when some point of the plane is nearer than `epsilon`. -/
theorem C94_contains (p : Plane) (h : UnitVec p.normal) (x : Vec) (epsilon : ℝ) :
    p.contains x epsilon = true ↔ ∃ y ∈ planeSet p.normal p.d, eDist x y < epsilon := by
  rw [Plane.contains, approxZero_iff]
  have h1 := (C94_project p h x)
  have h2 : |p.signedDistance x| = eDist x (p.project x) := h1.2.1
  rw [h2]
  exact ⟨fun h' => ⟨_, h1.1.1, h'⟩, fun ⟨y, hy, hl⟩ => lt_of_le_of_lt (h1.1.2 y hy) hl⟩

/-- C94: normalizing gives a unit normal in the same direction, and the same plane. -/
theorem C94_normalize (p : Plane) (h : p.normal ≠ 0) :
    UnitVec p.normalizeP.normal ∧ planeSet p.normalizeP.normal p.normalizeP.d = planeSet p.normal p.d ∧
      ∃ k : ℝ, 0 < k ∧ p.normalizeP.normal = k • p.normal := by
  have hl := length_pos h
  have hs := length_sq p.normal
  refine ⟨?_, ?_, 1 / length p.normal, by positivity, ?_⟩
  · show _ ⬝ᵥ _ = _
    rw [dp3]
    simp only [Plane.normalizeP]
    generalize length p.normal = l at *
    field_simp; linarith
  · ext x
    rw [mem_plane, mem_plane]
    simp only [Plane.normalizeP]
    generalize length p.normal = l at *
    have : p.normal 0 * (1 / l) * x 0 + p.normal 1 * (1 / l) * x 1 + p.normal 2 * (1 / l) * x 2 + p.d * (1 / l)
        = (p.normal 0 * x 0 + p.normal 1 * x 1 + p.normal 2 * x 2 + p.d) * (1 / l) := by ring
    rw [this, mul_eq_zero]
    constructor
    · rintro (h | h)
      · exact h
      · exact absurd h (by positivity)
    · exact Or.inl
  · funext i; simp [Plane.normalizeP]; ring

example : (⟨![0, 3, 4], 10⟩ : Plane).normal ≠ 0 := by
  intro h; have := congrFun h 1; simp at this

/-- C94: `same_side` of any number of points holds exactly when no plane-crossing separates two of them: they are all
on the side the normal points to (the plane included), or all strictly on the other side. -/
theorem C94_same_side (p : Plane) (p1 p2 : Vec) (pn : List Vec) :
    p.sameSide p1 p2 pn = true ↔
      (∀ x ∈ p1 :: p2 :: pn, 0 ≤ p.normal ⬝ᵥ x + p.d) ∨ (∀ x ∈ p1 :: p2 :: pn, p.normal ⬝ᵥ x + p.d < 0) := by
  rw [Plane.sameSide]
  simp only [foldl_and, Plane.signedDistance, dot_dp]
  by_cases h1 : 0 ≤ p.normal ⬝ᵥ p1 + p.d
  · have h1' : ¬ p.normal ⬝ᵥ p1 + p.d < 0 := not_lt.mpr h1
    simp [h1, h1']
  · have h1' : p.normal ⬝ᵥ p1 + p.d < 0 := not_le.mp h1
    simp [h1, h1', not_le]

/-- A `4x4` transform that keeps angles: a rotation or reflection scaled by `k`, then a translation. -/
structure Similarity (tx : Mat ℝ 4 4) (k : ℝ) : Prop where
  pos : 0 < k
  col : ∀ i j : Fin 3, ∑ r : Fin 3, tx r.castSucc i.castSucc * tx r.castSucc j.castSucc = if i = j then k ^ 2 else 0
  last : ∀ j : Fin 4, tx 3 j = if j = 3 then 1 else 0

/-- C94 (partial): for a transform that keeps angles, the transformed plane is the image of the plane, with a unit
normal.  Missing: other affine transforms, for which it is false (`C94_transform_violated`). -/
theorem C94_transform_partial (p : Plane) (h : UnitVec p.normal) (tx : Mat ℝ 4 4) (k : ℝ) (hs : Similarity tx k)
    (x : Vec) :
    UnitVec (p.transform tx).normal ∧
      (transformPosition44 tx x ∈ planeSet (p.transform tx).normal (p.transform tx).d ↔
        x ∈ planeSet p.normal p.d) := by
  have hu := unit3 h
  have hk := hs.pos
  have h00 := hs.col 0 0
  have h11 := hs.col 1 1
  have h22 := hs.col 2 2
  have h01 := hs.col 0 1
  have h02 := hs.col 0 2
  have h12 := hs.col 1 2
  have hl := hs.last
  simp only [Fin.sum_univ_three, Fin.isValue, if_true, Fin.reduceEq, if_false, Fin.castSucc_zero,
    Fin.castSucc_one, Fin.reduceCastSucc] at h00 h11 h22 h01 h02 h12
  have hn1 : length p.normal = 1 := by
    rw [length_eq n31, ls3, hu, Real.sqrt_one]
  have hlen : length (transformWithoutTranslating (by decide) (by decide) tx p.normal : Vec) = k := by
    rw [length_eq n31, ls3, wt3, Real.sqrt_eq_iff_eq_sq (by positivity) hk.le]
    simp only [Matrix.cons_val_zero, Matrix.cons_val_one, Matrix.cons_val]
    linear_combination p.normal 0 ^ 2 * h00 + p.normal 1 ^ 2 * h11 + p.normal 2 ^ 2 * h22
      + 2 * p.normal 0 * p.normal 1 * h01 + 2 * p.normal 0 * p.normal 2 * h02 + 2 * p.normal 1 * p.normal 2 * h12
      + k ^ 2 * hu
  have hlen2 := length_sq (transformWithoutTranslating (by decide) (by decide) tx p.normal : Vec)
  have hN : (p.transform tx).normal = fun i => transformWithoutTranslating (by decide) (by decide) tx p.normal i * (1 / k) := by
    funext i
    simp only [Plane.transform, planeAt, transformDirection, hn1, one_mul, normalize_eq n31, hlen]
  refine ⟨?_, ?_⟩
  · show _ ⬝ᵥ _ = _
    rw [hN, dp3]
    rw [hlen] at hlen2
    field_simp
    linarith
  · have hd : (p.transform tx).d = -dot (transformPosition44 tx p.origin) (p.transform tx).normal := rfl
    rw [mem_plane, mem_plane, hd, dot3, hN, tp3 tx hl, tp3 tx hl, wt3]
    simp only [Matrix.cons_val_zero, Matrix.cons_val_one, Matrix.cons_val, Plane.origin]
    have hc : k * (1 / k) = 1 := by field_simp
    generalize 1 / k = c at *
    have key : ∀ e : ℝ, e = k * (p.normal 0 * x 0 + p.normal 1 * x 1 + p.normal 2 * x 2 + p.d) →
        (e = 0 ↔ p.normal 0 * x 0 + p.normal 1 * x 1 + p.normal 2 * x 2 + p.d = 0) := by
      rintro e rfl
      simp [hk.ne']
    apply key
    linear_combination c * (1) * p.normal 0 * (x 0 + p.normal 0 * p.d) * h00 
      + c * (1) * p.normal 0 * (x 1 + p.normal 1 * p.d) * h01 
      + c * (1) * p.normal 0 * (x 2 + p.normal 2 * p.d) * h02 
      + c * (1) * p.normal 1 * (x 0 + p.normal 0 * p.d) * h01 
      + c * (1) * p.normal 1 * (x 1 + p.normal 1 * p.d) * h11 
      + c * (1) * p.normal 1 * (x 2 + p.normal 2 * p.d) * h12 
      + c * (1) * p.normal 2 * (x 0 + p.normal 0 * p.d) * h02 
      + c * (1) * p.normal 2 * (x 1 + p.normal 1 * p.d) * h12 
      + c * (1) * p.normal 2 * (x 2 + p.normal 2 * p.d) * h22
      + k * (p.normal 0 * x 0 + p.normal 1 * x 1 + p.normal 2 * x 2
        + p.d * (p.normal 0 ^ 2 + p.normal 1 ^ 2 + p.normal 2 ^ 2)) * hc + k * p.d * hu

example : Similarity ![![6 / 5, -8 / 5, 0, 7], ![8 / 5, 6 / 5, 0, -1], ![0, 0, 2, 3], ![0, 0, 0, 1]] 2 := by
  refine ⟨by norm_num, ?_, ?_⟩
  · intro i j; fin_cases i <;> fin_cases j <;> simp [Fin.sum_univ_three] <;> norm_num
  · intro j; fin_cases j <;> simp

/-- C94 is false of the code for transforms that stretch one axis: the result is not the image of the plane. -/
theorem C94_transform_violated :
    ∃ (p : Plane) (tx : Mat ℝ 4 4) (x : Vec), UnitVec p.normal ∧
      (∀ i j, i ≠ j → tx i j = 0) ∧ (∀ i, tx i i ≠ 0) ∧ tx 3 3 = 1 ∧
      x ∈ planeSet p.normal p.d ∧
      transformPosition44 tx x ∉ planeSet (p.transform tx).normal (p.transform tx).d := by
  refine ⟨⟨![3 / 5, 4 / 5, 0], 0⟩, ![![2, 0, 0, 0], ![0, 1, 0, 0], ![0, 0, 1, 0], ![0, 0, 0, 1]], ![4, -3, 0], ?_, ?_, ?_,
    ?_, ?_, ?_⟩
  · show _ ⬝ᵥ _ = _
    rw [dp3]; simp; norm_num
  · intro i j hij; fin_cases i <;> fin_cases j <;> simp_all
  · intro i; fin_cases i <;> simp
  · simp
  · rw [mem_plane]; simp; norm_num
  · rw [mem_plane]
    have hd : ∀ (p : Plane) (tx : Mat ℝ 4 4),
        (p.transform tx).d = -dot (transformPosition44 tx p.origin) (p.transform tx).normal := fun _ _ => rfl
    have hN : ∀ (p : Plane) (tx : Mat ℝ 4 4), (p.transform tx).normal =
        fun i => length p.normal * (transformWithoutTranslating (by decide) (by decide) tx p.normal i *
          (1 / length (transformWithoutTranslating (by decide) (by decide) tx p.normal))) := fun p tx => by
      funext i; simp only [Plane.transform, planeAt, transformDirection, normalize_eq n31]
    rw [hd, dot3, hN, tp3 _ (by intro j; fin_cases j <;> simp), tp3 _ (by intro j; fin_cases j <;> simp)]
    have h1 := length_pos (v := ![3 / 5, 4 / 5, 0]) (by intro h; have := congrFun h 0; simp at this)
    have h2 := length_pos (v := transformWithoutTranslating (by decide) (by decide)
      (![![2, 0, 0, 0], ![0, 1, 0, 0], ![0, 0, 1, 0], ![0, 0, 0, 1]] : Mat ℝ 4 4) ![3 / 5, 4 / 5, 0])
      (by rw [wt3]; intro h; have := congrFun h 0; simp at this)
    generalize length _ = l1 at *
    generalize length _ = l2 at *
    simp only [wt3, Plane.origin]
    simp
    have h3 := mul_pos h1 (inv_pos.mpr h2)
    intro h
    nlinarith

/-! ### C95: planes and line segments -/

/-- The value of `signed_distance` along a segment. -/
theorem sd_along (p : Plane) (a b x : Vec) (t : ℝ) (h : ∀ i, x i = a i + t * (b i - a i)) :
    p.signedDistance x = (1 - t) * p.signedDistance a + t * p.signedDistance b := by
  rw [sd3, sd3, sd3, h 0, h 1, h 2]; ring

/-- C95: a segment and a plane share a point exactly when the ends are not strictly on one side: the *opposite*
comparison to the one the code makes. -/
theorem C95_meets (p : Plane) (a b : Vec) :
    Meets (planeSet p.normal p.d) (segment ℝ a b) ↔ p.signedDistance a * p.signedDistance b ≤ 0 := by
  have hm : ∀ x, x ∈ planeSet p.normal p.d ↔ p.signedDistance x = 0 := fun x => by rw [mem_plane, sd3]
  constructor
  · rintro ⟨x, hx, hs⟩
    obtain ⟨t, h0, h1, hx'⟩ := (mem_segment _ _ _).mp hs
    have := sd_along p a b x t hx'
    rw [(hm x).mp hx] at this
    by_contra hc
    push Not at hc
    rcases pos_and_pos_or_neg_and_neg_of_mul_pos hc with ⟨h2, h3⟩ | ⟨h2, h3⟩ <;>
    · rcases h0.lt_or_eq with h | h
      · nlinarith
      · rw [← h] at this; linarith
  · intro h
    by_cases hd : p.signedDistance a - p.signedDistance b = 0
    · have ha : p.signedDistance a = 0 := by
        have : p.signedDistance b = p.signedDistance a := by linarith
        rw [this] at h; nlinarith
      exact ⟨a, (hm a).mpr ha, left_mem_segment ℝ a b⟩
    · set s := p.signedDistance a with hs
      set r := p.signedDistance b with hr
      refine ⟨fun i => a i + s / (s - r) * (b i - a i), (hm _).mpr ?_, (mem_segment _ _ _).mpr
        ⟨s / (s - r), ?_, ?_, fun i => rfl⟩⟩
      · rw [sd_along p a b _ (s / (s - r)) (fun i => rfl), ← hs, ← hr]
        field_simp; ring
      · rcases lt_or_gt_of_ne hd with h' | h'
        · exact div_nonneg_of_nonpos (by nlinarith) h'.le
        · exact div_nonneg (by nlinarith) h'.le
      · rcases lt_or_gt_of_ne hd with h' | h'
        · rw [div_le_one_of_neg h']; nlinarith
        · rw [div_le_one h']; nlinarith

/-- C95: `intersects(plane, segment)` tells whether both ends are on the same closed side of the plane, which for
segments with both ends off the plane is the opposite of what it should tell. -/
theorem C95_inverted (p : Plane) (a b : Vec) (ha : a ∉ planeSet p.normal p.d) (hb : b ∉ planeSet p.normal p.d) :
    p.intersectsSegment a b = true ↔ ¬ Meets (planeSet p.normal p.d) (segment ℝ a b) := by
  have hm : ∀ x, x ∈ planeSet p.normal p.d ↔ p.signedDistance x = 0 := fun x => by rw [mem_plane, sd3]
  rw [C95_meets, Plane.intersectsSegment]
  simp only [decide_eq_true_eq, not_le]
  rw [hm] at ha hb
  constructor
  · intro h; exact lt_of_le_of_ne h (Ne.symm (mul_ne_zero ha hb))
  · exact fun h => h.le

/-- C95 is false of the code: a segment crossing the plane is reported as not intersecting it, and a segment clear of
the plane as intersecting it. -/
theorem C95_violated :
    (∃ (p : Plane) (a b : Vec), UnitVec p.normal ∧ Meets (planeSet p.normal p.d) (segment ℝ a b) ∧
      p.intersectsSegment a b = false) ∧
    (∃ (p : Plane) (a b : Vec), UnitVec p.normal ∧ ¬ Meets (planeSet p.normal p.d) (segment ℝ a b) ∧
      p.intersectsSegment a b = true) := by
  refine ⟨⟨⟨![0, 1, 0], 0⟩, ![0, -1, 0], ![0, 1, 0], ?_, ?_, ?_⟩, ⟨⟨![0, 1, 0], 0⟩, ![0, 1, 0], ![0, 2, 0], ?_, ?_, ?_⟩⟩
  · show _ ⬝ᵥ _ = _
    rw [dp3]; simp
  · rw [C95_meets, sd3, sd3]; simp
  · simp [Plane.intersectsSegment, sd3]
  · show _ ⬝ᵥ _ = _
    rw [dp3]; simp
  · rw [C95_meets, sd3, sd3]; simp
  · simp [Plane.intersectsSegment, sd3]

/-! ### C96: line segments -/

/-- C96: for a segment with distinct ends, `closest_point` is the nearest point of the segment. -/
theorem C96_closest (a b x : Vec) (h : a ≠ b) : ∃ q, closestPoint a b x = some q ∧ Nearest (segment ℝ a b) x q :=
  closest_spec h x

example : (![0, 0, 0] : Vec) ≠ ![1, 2, 2] := by intro h; have := congrFun h 0; simp at this

/-- C96 is false of the code for a segment of length zero: its only point is not returned (the result is NaN), and it
is reported as not contained. -/
theorem C96_zero_length_violated (a x : Vec) (epsilon : ℝ) (he : 0 < epsilon) :
    closestPoint a a x = none ∧ segmentContains a a a epsilon = false ∧ colinear a a a epsilon = false ∧
      Nearest (segment ℝ a a) x a ∧ eDist a a < epsilon := by
  have hc : ∀ y, closestPoint a a y = none := fun y => by rw [closestPoint, direction_none]
  refine ⟨hc x, ?_, ?_, ?_, ?_⟩
  · rw [segmentContains, segmentDistanceSquared, hc]
  · rw [colinear, direction_none]
  · rw [segment_same]; exact ⟨rfl, by rintro y rfl; exact le_refl _⟩
  · rw [eDist, sq3]; simpa using he

/-- C96: `contains` holds exactly when some point of the segment is within a *squared* distance of `epsilon`. -/
theorem C96_contains (a b x : Vec) (h : a ≠ b) (epsilon : ℝ) :
    segmentContains a b x epsilon = true ↔ ∃ y ∈ segment ℝ a b, eDist x y ^ 2 < epsilon := by
  obtain ⟨q, hq, hn⟩ := closest_spec h x
  rw [segmentContains, segmentDistanceSquared, hq]
  simp only [decide_eq_true_eq, dsq, eDist, Real.sq_sqrt (sqDist_nonneg _ _)]
  exact nearest_lt hn epsilon

/-- C96: `contains` of a range of points holds exactly when the range is not empty and all its points are contained. -/
theorem C96_contains_all (a b : Vec) (pts : List Vec) (h : a ≠ b) (epsilon : ℝ) :
    segmentContainsAll a b pts epsilon = true ↔
      pts ≠ [] ∧ ∀ x ∈ pts, ∃ y ∈ segment ℝ a b, eDist x y ^ 2 < epsilon := by
  rw [segmentContainsAll]
  split_ifs with he
  · simp [he]
  · simp [he, C96_contains a b _ h]

/-- C96: `contains` of a segment: if both ends lie within `epsilon`, so does every point of the inner segment (a
segment is convex), and conversely. -/
theorem C96_contains_segment (a b c d : Vec) (h : a ≠ b) (epsilon : ℝ) :
    segmentContainsSegment a b c d epsilon = true ↔
      ∀ x ∈ segment ℝ c d, ∃ y ∈ segment ℝ a b, eDist x y ^ 2 < epsilon := by
  rw [segmentContainsSegment, Bool.and_eq_true, C96_contains a b c h, C96_contains a b d h]
  constructor
  · rintro ⟨⟨y, hy, hcy⟩, ⟨z, hz, hdz⟩⟩ x hx
    obtain ⟨t, h0, h1, hx⟩ := (mem_segment _ _ _).mp hx
    obtain ⟨s, hs0, hs1, hys⟩ := (mem_segment _ _ _).mp hy
    obtain ⟨r, hr0, hr1, hzr⟩ := (mem_segment _ _ _).mp hz
    refine ⟨fun i => y i + t * (z i - y i), (mem_segment _ _ _).mpr ⟨s + t * (r - s), by nlinarith, by nlinarith,
      fun i => by rw [hys i, hzr i]; ring⟩, ?_⟩
    simp only [eDist, Real.sq_sqrt (sqDist_nonneg _ _)] at *
    rw [sq3] at *
    rw [hx 0, hx 1, hx 2]
    have key : (c 0 + t * (d 0 - c 0) - (y 0 + t * (z 0 - y 0))) ^ 2 + (c 1 + t * (d 1 - c 1) - (y 1 + t * (z 1 - y 1))) ^ 2
        + (c 2 + t * (d 2 - c 2) - (y 2 + t * (z 2 - y 2))) ^ 2
        = (1 - t) * ((c 0 - y 0) ^ 2 + (c 1 - y 1) ^ 2 + (c 2 - y 2) ^ 2)
          + t * ((d 0 - z 0) ^ 2 + (d 1 - z 1) ^ 2 + (d 2 - z 2) ^ 2)
          - t * (1 - t) * ((c 0 - y 0 - (d 0 - z 0)) ^ 2 + (c 1 - y 1 - (d 1 - z 1)) ^ 2
            + (c 2 - y 2 - (d 2 - z 2)) ^ 2) := by ring
    rw [key]
    have h2 : 0 ≤ t * (1 - t) * ((c 0 - y 0 - (d 0 - z 0)) ^ 2 + (c 1 - y 1 - (d 1 - z 1)) ^ 2
            + (c 2 - y 2 - (d 2 - z 2)) ^ 2) := mul_nonneg (mul_nonneg h0 (by linarith)) (by positivity)
    rcases h0.lt_or_eq with h0' | h0'
    · nlinarith
    · rw [← h0'] at *; nlinarith
  · exact fun hall => ⟨hall c (left_mem_segment ℝ c d), hall d (right_mem_segment ℝ c d)⟩

/-- C96: `colinear` of a point holds exactly when some point of the infinite line through the ends is within a
squared distance of `epsilon`; of a segment, when it holds of both ends. -/
theorem C96_colinear (a b x y : Vec) (h : a ≠ b) (epsilon : ℝ) :
    (colinear a b x epsilon = true ↔ ∃ z ∈ lineThrough a (b - a), eDist x z ^ 2 < epsilon) ∧
    (colinearSegment a b x y epsilon = true ↔
      (∃ z ∈ lineThrough a (b - a), eDist x z ^ 2 < epsilon) ∧ ∃ z ∈ lineThrough a (b - a), eDist y z ^ 2 < epsilon) := by
  obtain ⟨dir, len, hd, hl, hu, hb, -⟩ := direction_spec h
  have hline : lineThrough a (b - a) = lineThrough a dir :=
    line_scale a dir (b - a) len hl.ne' fun i => by simp [hb i]
  simp only [eDist, Real.sq_sqrt (sqDist_nonneg _ _)]
  rw [colinear, colinearSegment, hd, hline, Bool.and_eq_true, lineContains_iff _ _ _ _ hu, lineContains_iff _ _ _ _ hu]
  exact ⟨Iff.rfl, Iff.rfl⟩

/-- C96 (partial): when the first end of the second segment is off the line of the first, `coplanar` holds exactly when
the remaining end is within `epsilon` of the plane through the other three points.  Missing: a second segment that
starts on the line of the first, where it is false (`C96_coplanar_violated`). -/
theorem C96_coplanar_partial (a b c d : Vec) (h : Proper a b c) (epsilon : ℝ) :
    coplanarSegments a b c d epsilon = true ↔
      ∃ y, crossProduct (b - a) (c - a) ⬝ᵥ (y - a) = 0 ∧ eDist d y < epsilon := by
  obtain ⟨n, hn, hu, k, hk, -, hkn⟩ := normalizeNaN_spec ((proper_iff _ _ _).mp h)
  rw [coplanarSegments, triNormal, hn]
  show Plane.contains (planeAt a n) d epsilon = true ↔ _
  rw [C94_contains (planeAt a n) hu]
  have : ∀ y, y ∈ planeSet (planeAt a n).normal (planeAt a n).d ↔ crossProduct (b - a) (c - a) ⬝ᵥ (y - a) = 0 := by
    intro y
    rw [C94_construct, ← cross_eq, dp3, dp3, hkn, hkn, hkn]
    have : k * cross (fun i => b i - a i) (fun i => c i - a i) 0 * (y - a) 0
        + k * cross (fun i => b i - a i) (fun i => c i - a i) 1 * (y - a) 1
        + k * cross (fun i => b i - a i) (fun i => c i - a i) 2 * (y - a) 2
        = k * (cross (b - a) (c - a) 0 * (y - a) 0 + cross (b - a) (c - a) 1 * (y - a) 1
          + cross (b - a) (c - a) 2 * (y - a) 2) := by
      simp only [cross3, Pi.sub_apply]; ring
    rw [this]
    simp [hk.ne']
  simp only [this]

/-- C96 is false of the code: two segments that share an end are in one plane, but are reported as not coplanar. -/
theorem C96_coplanar_violated (a b d : Vec) (epsilon : ℝ) : coplanarSegments a b b d epsilon = false := by
  have : triNormal a b b = none := by
    rw [triNormal, normalizeNaN, if_pos]
    rw [vec_zero]
    simp only [cross3]
    refine ⟨?_, ?_, ?_⟩ <;> ring
  rw [coplanarSegments, this]

/-- C96: `extend` keeps the start and moves the end by the given amount along the segment's direction. -/
theorem C96_extend (a b : Vec) (h : a ≠ b) (amount : ℝ) :
    ∃ u : Vec, UnitVec u ∧ b = a + eDist a b • u ∧
      extend a b amount = some (a, b + amount • u) := by
  obtain ⟨dir, len, hd, hl, hu, hb, hle⟩ := direction_spec h
  refine ⟨dir, hu, ?_, ?_⟩
  · funext i; rw [← hle, hb i]; rfl
  · rw [extend, hd]
    simp only [Option.some.injEq, Prod.mk.injEq, true_and]
    funext i
    simp [hb i]; ring

/-- C96: `midpoint` and `length`. -/
theorem C96_midpoint (a b : Vec) :
    Verif.Model.Geometry.midpoint a b = _root_.midpoint ℝ a b ∧ segmentLength a b = eDist a b := by
  refine ⟨?_, eDist_eq a b⟩
  funext i
  simp [midpoint_eq_smul_add, Verif.Model.Geometry.midpoint]; ring

/-! ### C97: triangles -/

/-- C97: the normal is a unit vector perpendicular to the triangle, on the side from which the corners appear in
counter-clockwise order; corners on one line give NaN. -/
theorem C97_normal (p0 p1 p2 : Vec) :
    (Proper p0 p1 p2 → ∃ n, triNormal p0 p1 p2 = some n ∧ UnitVec n ∧ n ⬝ᵥ (p1 - p0) = 0 ∧ n ⬝ᵥ (p2 - p0) = 0 ∧
      0 < Matrix.det (Matrix.of ![p1 - p0, p2 - p0, n])) ∧
    (¬ Proper p0 p1 p2 → triNormal p0 p1 p2 = none) := by
  constructor
  · intro h
    obtain ⟨n, hn, hu, k, hk, hkl, hkn⟩ := normalizeNaN_spec ((proper_iff _ _ _).mp h)
    refine ⟨n, hn, hu, ?_, ?_, ?_⟩
    · rw [dp3, hkn, hkn, hkn]; simp only [cross3, Pi.sub_apply]; ring
    · rw [dp3, hkn, hkn, hkn]; simp only [cross3, Pi.sub_apply]; ring
    · have hl := length_pos ((proper_iff _ _ _).mp h)
      have hs := length_sq (cross (fun i => p1 i - p0 i) (fun i => p2 i - p0 i))
      have : Matrix.det (Matrix.of ![p1 - p0, p2 - p0, n])
          = k * length (cross (fun i => p1 i - p0 i) (fun i => p2 i - p0 i)) ^ 2 := by
        rw [hs, Matrix.det_fin_three]
        simp [hkn]
        simp only [cross3]
        ring
      rw [this]
      positivity
  · intro h
    rw [proper_iff, not_not] at h
    rw [triNormal, normalizeNaN, if_pos h]

/-- C97: `perimeter` and `area`: the area is half the length of the cross product of two edges. -/
theorem C97_area (p0 p1 p2 : Vec) :
    perimeter p0 p1 p2 = eDist p0 p1 + eDist p1 p2 + eDist p2 p0 ∧
    area p0 p1 p2 = 1 / 2 * Real.sqrt (crossProduct (p1 - p0) (p2 - p0) ⬝ᵥ crossProduct (p1 - p0) (p2 - p0)) := by
  refine ⟨by rw [perimeter, eDist_eq, eDist_eq, eDist_eq], ?_⟩
  rw [area, eDist_eq, eDist_eq, eDist_eq]
  have ha : eDist p0 p1 ^ 2 = sqDist p0 p1 := Real.sq_sqrt (sqDist_nonneg _ _)
  have hb : eDist p1 p2 ^ 2 = sqDist p1 p2 := Real.sq_sqrt (sqDist_nonneg _ _)
  have hc : eDist p2 p0 ^ 2 = sqDist p2 p0 := Real.sq_sqrt (sqDist_nonneg _ _)
  rw [sq3] at ha hb hc
  have h4 : (1 / 2 : ℝ) = Real.sqrt (1 / 4) := by
    rw [show (1 / 4 : ℝ) = (1 / 2) ^ 2 by norm_num, Real.sqrt_sq (by norm_num)]
  rw [h4, ← Real.sqrt_mul (by norm_num)]
  congr 1
  rw [← cross_eq, dp3]
  simp only [cross3, Pi.sub_apply]
  generalize eDist p0 p1 = a at *
  generalize eDist p1 p2 = b at *
  generalize eDist p2 p0 = c at *
  have e : (a + b + c) / 2 * ((a + b + c) / 2 - a) * ((a + b + c) / 2 - b) * ((a + b + c) / 2 - c)
      = (4 * a ^ 2 * b ^ 2 - (a ^ 2 + b ^ 2 - c ^ 2) ^ 2) / 16 := by ring
  simp only [e, ha, hb, hc]
  ring

/-- C97: for a triangle whose corners are not on one line, `barycentric` gives weights that sum to one and combine the
corners to the point of the triangle's plane nearest to `x`. -/
theorem C97_barycentric (p0 p1 p2 x : Vec) (h : Proper p0 p1 p2) :
    ∃ w, barycentric p0 p1 p2 x = some w ∧ w 0 + w 1 + w 2 = 1 ∧
      Nearest (triPlane p0 p1 p2) x (w 0 • p0 + w 1 • p1 + w 2 • p2) := by
  obtain ⟨y, z, hw, h1, h2⟩ := bary_spec p0 p1 p2 x h
  refine ⟨_, hw, by simp; ring, ?_⟩
  rw [nearest_iff]
  have hq : ∀ i, ((![1 - (y + z), y, z] : Vec) 0 • p0 + (![1 - (y + z), y, z] : Vec) 1 • p1
      + (![1 - (y + z), y, z] : Vec) 2 • p2) i = p0 i + y * (p1 i - p0 i) + z * (p2 i - p0 i) := by
    intro i; simp; ring
  generalize (![1 - (y + z), y, z] : Vec) 0 • p0 + (![1 - (y + z), y, z] : Vec) 1 • p1
      + (![1 - (y + z), y, z] : Vec) 2 • p2 = q at *
  refine ⟨by rw [triPlane_iff, hq, hq, hq]; ring, ?_⟩
  intro v hv
  obtain ⟨s, t, hst⟩ := plane_span h hv
  rw [sq3, sq3, hst 0, hst 1, hst 2, hq 0, hq 1, hq 2]
  have key : (x 0 - (p0 0 + s * (p1 0 - p0 0) + t * (p2 0 - p0 0))) ^ 2
      + (x 1 - (p0 1 + s * (p1 1 - p0 1) + t * (p2 1 - p0 1))) ^ 2
      + (x 2 - (p0 2 + s * (p1 2 - p0 2) + t * (p2 2 - p0 2))) ^ 2
      - ((x 0 - (p0 0 + y * (p1 0 - p0 0) + z * (p2 0 - p0 0))) ^ 2
      + (x 1 - (p0 1 + y * (p1 1 - p0 1) + z * (p2 1 - p0 1))) ^ 2
      + (x 2 - (p0 2 + y * (p1 2 - p0 2) + z * (p2 2 - p0 2))) ^ 2)
      = ((y - s) * (p1 0 - p0 0) + (z - t) * (p2 0 - p0 0)) ^ 2
      + ((y - s) * (p1 1 - p0 1) + (z - t) * (p2 1 - p0 1)) ^ 2
      + ((y - s) * (p1 2 - p0 2) + (z - t) * (p2 2 - p0 2)) ^ 2 := by
    linear_combination 2 * (y - s) * h1 + 2 * (z - t) * h2
  have hn : 0 ≤ ((y - s) * (p1 0 - p0 0) + (z - t) * (p2 0 - p0 0)) ^ 2
      + ((y - s) * (p1 1 - p0 1) + (z - t) * (p2 1 - p0 1)) ^ 2
      + ((y - s) * (p1 2 - p0 2) + (z - t) * (p2 2 - p0 2)) ^ 2 := by positivity
  rw [← key] at hn
  exact sub_nonneg.mp hn

/-- C97: a point of the triangle's plane is in the triangle exactly when no barycentric weight is negative. -/
theorem C97_barycentric_inside (p0 p1 p2 x : Vec) (h : Proper p0 p1 p2) (hx : x ∈ triPlane p0 p1 p2) :
    ∃ w, barycentric p0 p1 p2 x = some w ∧ (x ∈ convexHull ℝ {p0, p1, p2} ↔ ∀ i, 0 ≤ w i) := by
  obtain ⟨y, z, hw, h1, h2⟩ := bary_spec p0 p1 p2 x h
  obtain ⟨s, t, hst⟩ := plane_span h hx
  obtain ⟨e1, e2⟩ := bary_unique h y z s t x h1 h2 hst
  refine ⟨_, hw, ?_⟩
  rw [mem_tri]
  constructor
  · rintro ⟨a, b, c, ha, hb, hc, hsum, hx'⟩
    obtain ⟨f1, f2⟩ := bary_unique h y z b c x h1 h2 fun i => by
      rw [hx' i]; linear_combination p0 i * hsum
    intro i
    fin_cases i <;> simp <;> linarith
  · intro hw'
    have w0 := hw' 0
    have w1 := hw' 1
    have w2 := hw' 2
    simp at w0 w1 w2
    exact ⟨1 - (y + z), y, z, by linarith, w1, w2, by ring, fun i => by rw [hst i, e1, e2]; ring⟩

/-- C97: `degenerate` tells whether two corners coincide. -/
theorem C97_degenerate (p0 p1 p2 : Vec) : triDegenerate p0 p1 p2 = true ↔ p0 = p1 ∨ p0 = p2 ∨ p1 = p2 := by
  simp [triDegenerate, or_assoc]

/-- C97 is false of the code: three distinct corners on one line are not reported as degenerate. -/
theorem C97_degenerate_violated : ∃ p0 p1 p2 : Vec, ¬ Proper p0 p1 p2 ∧ triDegenerate p0 p1 p2 = false := by
  refine ⟨![0, 0, 0], ![1, 0, 0], ![2, 0, 0], ?_, ?_⟩
  · rw [proper_iff, not_not, vec_zero]
    simp [cross3]
  · rw [Bool.eq_false_iff, Ne, C97_degenerate]
    push Not
    refine ⟨?_, ?_, ?_⟩ <;> · intro h; have := congrFun h 0; norm_num at this

/-- C97: every point of a triangle is reported as contained, for any positive `epsilon`. -/
theorem C97_contains_inside (p0 p1 p2 x : Vec) (h : Proper p0 p1 p2) (hx : x ∈ convexHull ℝ {p0, p1, p2})
    (epsilon : ℝ) (he : 0 < epsilon) : triContains p0 p1 p2 x epsilon = true := by
  obtain ⟨a, b, c, ha, hb, hc, hsum, hx'⟩ := (mem_tri _ _ _ _).mp hx
  have hp : x ∈ triPlane p0 p1 p2 := by
    rw [triPlane_iff, hx' 0, hx' 1, hx' 2]
    have : a = 1 - b - c := by linarith
    rw [this]; ring
  rw [triContains_plane h hp he b c (fun i => by rw [hx' i]; linear_combination p0 i * hsum)]
  have : 1 - b - c = a := by linarith
  rw [this]
  exact ⟨by positivity, by positivity⟩

/-- C97 (partial): for a point of the triangle's plane, `contains` tells whether the point is in the triangle or on the
infinite line through the second and third corner.  Missing: the points of that line outside the triangle should not
be contained (`C97_contains_violated`). -/
theorem C97_contains_partial (p0 p1 p2 x : Vec) (h : Proper p0 p1 p2) (hx : x ∈ triPlane p0 p1 p2)
    (epsilon : ℝ) (he : 0 < epsilon) :
    triContains p0 p1 p2 x epsilon = true ↔ x ∈ convexHull ℝ {p0, p1, p2} ∨ x ∈ lineThrough p1 (p2 - p1) := by
  obtain ⟨s, t, hst⟩ := plane_span h hx
  rw [triContains_plane h hx he s t hst]
  constructor
  · rintro ⟨h1, h2⟩
    rcases lt_trichotomy (1 - s - t) 0 with h3 | h3 | h3
    · have : s ≤ 0 := by nlinarith
      have : t ≤ 0 := by nlinarith
      linarith
    · right
      refine ⟨t, ?_⟩
      funext i
      have : s = 1 - t := by linarith
      rw [hst i, this]; simp; ring
    · left
      rw [mem_tri]
      exact ⟨1 - s - t, s, t, h3.le, by nlinarith, by nlinarith, by ring, fun i => by rw [hst i]; ring⟩
  · rintro (h1 | ⟨r, hr⟩)
    · obtain ⟨a, b, c, ha, hb, hc, hsum, hx'⟩ := (mem_tri _ _ _ _).mp h1
      obtain ⟨rfl, rfl⟩ := span_unique h s t b c fun i => by
        rw [← hst i, hx' i]; linear_combination p0 i * hsum
      have : 1 - s - t = a := by linarith
      rw [this]
      exact ⟨by positivity, by positivity⟩
    · obtain ⟨rfl, rfl⟩ := span_unique h s t (1 - r) r fun i => by
        rw [← hst i, hr]; simp; ring
      have : 1 - (1 - t) - t = 0 := by ring
      rw [this]
      simp

/-- C97: a contained point is within `epsilon` of the triangle's plane. -/
theorem C97_contains_near (p0 p1 p2 x : Vec) (epsilon : ℝ) (hc : triContains p0 p1 p2 x epsilon = true) :
    ∃ y ∈ triPlane p0 p1 p2, eDist x y < epsilon := by
  rw [triContains, Bool.and_eq_true, triCoplanar] at hc
  by_cases h : Proper p0 p1 p2
  · obtain ⟨n, hn, hu, k, hk, -, hkn⟩ := normalizeNaN_spec ((proper_iff _ _ _).mp h)
    rw [triNormal, hn] at hc
    have h1 : Plane.contains (planeAt p0 n) x epsilon = true := by
      rw [Plane.contains]
      convert hc.1 using 2
      rw [sd3, dot3]; simp only [planeAt, dTerm, dot3]; ring
    rw [C94_contains (planeAt p0 n) hu] at h1
    obtain ⟨y, hy, hd⟩ := h1
    refine ⟨y, ?_, hd⟩
    rw [C94_construct, dp3, hkn, hkn, hkn] at hy
    simp only [cross3, Pi.sub_apply] at hy
    rw [triPlane_iff]
    have := mul_ne_zero hk.ne' hk.ne'
    apply mul_left_cancel₀ hk.ne'
    linarith
  · rw [(C97_normal p0 p1 p2).2 h] at hc
    simp at hc

/-- C97 is false of the code: a point two edge-lengths away from a right triangle is reported as contained. -/
theorem C97_contains_violated :
    ∃ p0 p1 p2 x : Vec, Proper p0 p1 p2 ∧ x ∉ convexHull ℝ {p0, p1, p2} ∧
      (∀ epsilon : ℝ, 0 < epsilon → triContains p0 p1 p2 x epsilon = true) ∧
      ∀ y ∈ convexHull ℝ {p0, p1, p2}, (1 : ℝ) ≤ eDist x y := by
  have hp : Proper ![0, 0, 0] ![1, 0, 0] ![0, 1, 0] := by
    rw [proper_iff, Ne, vec_zero]
    simp [cross3]
  have far : ∀ y ∈ convexHull ℝ {(![0, 0, 0] : Point), ![1, 0, 0], ![0, 1, 0]}, (1 : ℝ) ≤ eDist ![2, -1, 0] y := by
    intro y hy
    obtain ⟨a, b, c, ha, hb, hc, hsum, hy⟩ := (mem_tri _ _ _ _).mp hy
    rw [eDist, Real.one_le_sqrt, sq3, hy 0, hy 1, hy 2]
    simp
    nlinarith
  refine ⟨![0, 0, 0], ![1, 0, 0], ![0, 1, 0], ![2, -1, 0], hp, ?_, ?_, far⟩
  · intro hx
    have := far _ hx
    rw [eDist, sq3] at this
    norm_num at this
  · intro e he
    rw [C97_contains_partial _ _ _ _ hp _ e he]
    · right
      refine ⟨-1, ?_⟩
      funext i; fin_cases i <;> simp <;> norm_num
    · rw [triPlane_iff]; simp

/-- C97: ranges (never for an empty range) and segments are contained when their points are. -/
theorem C97_contains_many (p0 p1 p2 a b : Vec) (pts : List Vec) (epsilon : ℝ) :
    (triContainsAll p0 p1 p2 pts epsilon = true ↔ pts ≠ [] ∧ ∀ x ∈ pts, triContains p0 p1 p2 x epsilon = true) ∧
    (triContainsSegment p0 p1 p2 a b epsilon = true ↔
      triContains p0 p1 p2 a epsilon = true ∧ triContains p0 p1 p2 b epsilon = true) := by
  constructor
  · rw [triContainsAll]; split_ifs with h <;> simp [h]
  · rw [triContainsSegment, Bool.and_eq_true]

/-- C97: the centroid is the point with three equal weights. -/
theorem C97_centroid (p0 p1 p2 : Vec) (h : Proper p0 p1 p2) :
    barycentric p0 p1 p2 (centroid p0 p1 p2) = some ![1 / 3, 1 / 3, 1 / 3] := by
  obtain ⟨y, z, hw, h1, h2⟩ := bary_spec p0 p1 p2 (centroid p0 p1 p2) h
  obtain ⟨rfl, rfl⟩ := bary_unique h y z (1 / 3) (1 / 3) (centroid p0 p1 p2) h1 h2 fun i => by
    simp [centroid]; ring
  rw [hw]; norm_num

end Verif.Props.Geometry
