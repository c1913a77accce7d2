import Verif.Model.Obb
import Verif.Proofs.Obb
import Verif.Props.Boxes
import Verif.Props.Sphere

/-!
# C104-C106: oriented bounding boxes

Exact arithmetic.  An `Obb` with centre `c`, half-sides `e` and axes `u` stands for the set `orientedBox c e u`.
-/

namespace Verif.Props.Obb

open Verif.Model.Matrix Verif.Model.Vector Verif.Model.Transform Verif.Model.Geometry Verif.Model.Boxes Verif.Model.Obb
open Verif.Proofs.Vector Verif.Proofs.Transform Verif.Proofs.Geometry Verif.Proofs.Boxes Verif.Proofs.Obb Verif.Spec.Geometry

open scoped Matrix

/-- The set an oriented box stands for. -/
def region (b : Obb) : Set Point := orientedBox b.center b.extents b.axis

/-- The half-sides are not negative. -/
def Sized (b : Obb) : Prop := ∀ i, 0 ≤ b.extents i

/-- The axes are mutually orthogonal unit vectors. -/
def Orthonormal (b : Obb) : Prop := ∀ i j, b.axis i ⬝ᵥ b.axis j = if i = j then 1 else 0

/-- An oriented box that is not at the origin and not aligned with the axes. -/
noncomputable def sampleO : Obb := ⟨![1, 2, 3], ![10, 1, 1], ofCols ![![1, 0, 0], ![0, 3 / 5, 4 / 5], ![0, -4 / 5, 3 / 5]]⟩

theorem sampleO_axis : sampleO.axis 0 = ![1, 0, 0] ∧ sampleO.axis 1 = ![0, 3 / 5, 4 / 5] ∧ sampleO.axis 2 = ![0, -4 / 5, 3 / 5] :=
  ⟨rfl, rfl, rfl⟩

theorem sampleO_sized : Sized sampleO := by intro i; fin_cases i <;> norm_num [sampleO]

theorem sampleO_orthonormal : Orthonormal sampleO := by
  obtain ⟨h0, h1, h2⟩ := sampleO_axis
  intro i j
  rw [dp3]
  fin_cases i <;> fin_cases j <;> simp only [Fin.zero_eta, Fin.mk_one, Fin.reduceFinMk, h0, h1, h2] <;>
    norm_num [show ∀ a b c : ℝ, (![a, b, c] : Vec) 2 = c from fun _ _ _ => rfl] <;> decide

/-! ## C104: corners, volume, movement, transformation -/

/-- C104: each named corner adds the half-sides along the axes whose flag is set and subtracts the others; the box is the
convex hull of its corners. -/
theorem C104_corner (b : Obb) :
    (∀ k : Corner, b.corner k = b.center + (if k.x then b.extents 0 else -b.extents 0) • b.axis 0
      + (if k.y then b.extents 1 else -b.extents 1) • b.axis 1 + (if k.z then b.extents 2 else -b.extents 2) • b.axis 2) ∧
    b.minCorner = b.corner ⟨false, false, false⟩ ∧ b.maxCorner = b.corner ⟨true, true, true⟩ ∧
    (Sized b → region b = convexHull ℝ (Set.range b.corner)) := by
  refine ⟨fun k => ?_, rfl, rfl, fun h => ?_⟩
  · rw [corner_eq]; rfl
  · apply subset_antisymm
    · refine obox_subset (convex_convexHull ℝ _) fun s0 s1 s2 => ?_
      rw [← corner_eq b ⟨s0, s1, s2⟩]
      exact subset_convexHull _ _ ⟨_, rfl⟩
    · refine convexHull_min ?_ (obox_convex _ _ _)
      rintro x ⟨k, rfl⟩
      exact corner_mem h k

example : region sampleO = convexHull ℝ (Set.range sampleO.corner) := (C104_corner sampleO).2.2.2 sampleO_sized

/-- C104: `volume` is the Lebesgue measure of the box. -/
theorem C104_volume (b : Obb) (hb : Sized b) (ho : Orthonormal b) : (MeasureTheory.volume (region b)).toReal = b.volume := by
  let M : Matrix (Fin 3) (Fin 3) ℝ := Matrix.of b.axes
  have hM : M.transpose * M = 1 := by
    ext i j
    rw [Matrix.mul_apply, Matrix.one_apply, ← ho i j]
    rfl
  have hdet : |M.det| = 1 := by
    have := congrArg Matrix.det hM
    rw [Matrix.det_mul, Matrix.det_transpose, Matrix.det_one] at this
    rcases mul_self_eq_one_iff.mp this with h | h <;> rw [h] <;> simp
  have himg : region b = (fun x => b.center + x) '' (Matrix.toLin' M '' Verif.Props.Boxes.region ⟨0, b.extents⟩) := by
    ext x
    rw [region, mem_obox]
    constructor
    · rintro ⟨t0, t1, t2, h0, h1, h2, rfl⟩
      refine ⟨_, ⟨![t0, t1, t2], fun i => ?_, rfl⟩, ?_⟩
      · fin_cases i <;> simpa
      · funext i
        simp only [Pi.add_apply, Matrix.toLin'_apply, Matrix.mulVec, dotProduct, Fin.sum_univ_three, pt, M, Matrix.of_apply, Obb.axis,
          Matrix.cons_val_zero, Matrix.cons_val_one, Matrix.cons_val]
        ring
    · rintro ⟨_, ⟨t, ht, rfl⟩, rfl⟩
      have ht : ∀ i, |t i - 0| ≤ b.extents i := ht
      simp only [sub_zero] at ht
      refine ⟨t 0, t 1, t 2, ht 0, ht 1, ht 2, ?_⟩
      funext i
      simp only [Pi.add_apply, Matrix.toLin'_apply, Matrix.mulVec, dotProduct, Fin.sum_univ_three, pt, M, Matrix.of_apply, Obb.axis]
      ring
  rw [himg, Set.image_add_left, MeasureTheory.measure_preimage_add, MeasureTheory.Measure.addHaar_image_linearMap,
    LinearMap.det_toLin', hdet, ENNReal.ofReal_one, one_mul, Verif.Props.Boxes.C98_volume ⟨0, b.extents⟩ hb]
  rfl

/-- C104: a translated box is the box moved by the offset. -/
theorem C104_translate (b : Obb) (offset : Vec) : region (b.translate offset) = (fun x => x + offset) '' region b := by
  ext x
  rw [region, mem_obox]
  constructor
  · rintro ⟨t0, t1, t2, h0, h1, h2, rfl⟩
    refine ⟨pt b.center b.axis t0 t1 t2, (mem_obox _ _ _ _).mpr ⟨t0, t1, t2, h0, h1, h2, rfl⟩, ?_⟩
    funext i; simp only [Pi.add_apply, pt, Obb.translate, Obb.axis]; ring
  · rintro ⟨y, hy, rfl⟩
    obtain ⟨t0, t1, t2, h0, h1, h2, rfl⟩ := (mem_obox _ _ _ _).mp hy
    refine ⟨t0, t1, t2, h0, h1, h2, ?_⟩
    funext i; simp only [Pi.add_apply, pt, Obb.translate, Obb.axis]; ring

/-- C104: a box scaled by non-negative amounts is the box stretched along its own axes. -/
theorem C104_scale (b : Obb) (hb : Sized b) (s : Vec) (hs : ∀ i, 0 ≤ s i) :
    region (b.scale s) = {x | ∃ t : Fin 3 → ℝ, (∀ i, |t i| ≤ b.extents i) ∧ x = b.center + ∑ i, (s i * t i) • b.axis i} := by
  have stretch : ∀ (k e t : ℝ), 0 ≤ k → 0 ≤ e → |t| ≤ e * k → ∃ r, |r| ≤ e ∧ t = k * r := by
    intro k e t hk he h
    rcases eq_or_lt_of_le hk with h0 | h0
    · refine ⟨0, by simpa using he, ?_⟩
      rw [← h0, mul_zero] at h
      have := abs_nonneg t
      rw [mul_zero]; exact abs_eq_zero.mp (le_antisymm h this)
    · refine ⟨t / k, ?_, by field_simp⟩
      rw [abs_div, abs_of_pos h0, div_le_iff₀ h0]; exact h
  ext x
  constructor
  · rintro ⟨t, ht, rfl⟩
    have key : ∀ i, ∃ r, |r| ≤ b.extents i ∧ t i = s i * r := fun i => stretch _ _ _ (hs i) (hb i) (ht i)
    choose r hr e using key
    refine ⟨r, hr, ?_⟩
    simp only [e]; rfl
  · rintro ⟨t, ht, rfl⟩
    refine ⟨fun i => s i * t i, fun i => ?_, rfl⟩
    show |s i * t i| ≤ b.extents i * s i
    rw [abs_mul, abs_of_nonneg (hs i), mul_comm]
    exact mul_le_mul_of_nonneg_right (ht i) (hs i)

example : ∀ i, (0 : ℝ) ≤ (![2, 0, 1 / 2] : Vec) i := by intro i; fin_cases i <;> norm_num

/-- C104 (partial): an affine transform of a box with positive half-sides, under which no axis vanishes, gives the image of
the box as a set; a transform that multiplies all distances by one positive factor also keeps the axes orthonormal.
Missing: under other transforms the axes of the result are not orthogonal, and its queries are wrong
(`C104_transform_violated`); a box with a zero half-side has a NaN axis afterwards (`C104_transform_flat_violated`). -/
theorem C104_transform_partial (b : Obb) (hb : ∀ i, 0 < b.extents i) (tx : Mat ℝ 4 4)
    (h : ∀ j : Fin 4, tx 3 j = if j = 3 then 1 else 0)
    (hv : ∀ j, transformPosition44 tx (b.center + b.axis j) ≠ transformPosition44 tx b.center) :
    ∃ b', b.transform tx = some b' ∧ Sized b' ∧ region b' = transformPosition44 tx '' region b ∧
      (Orthonormal b → (∃ k > 0, ∀ x y, eDist (transformPosition44 tx x) (transformPosition44 tx y) = k * eDist x y) →
        Orthonormal b') := by
  have hl : ∀ j, lin tx (b.axis j) ≠ 0 := by
    intro j h0
    apply hv j
    funext i
    have := congrFun h0 i
    rw [tx_eq h, tx_eq h]
    simp only [lin, Pi.add_apply, Pi.zero_apply] at this ⊢
    linarith
  have hs : ∀ j, (fun i => lin tx (b.axis j) i * b.extents j : Point) ≠ 0 := by
    intro j h0
    apply hl j
    funext i
    have := congrFun h0 i
    simpa [(hb j).ne'] using this
  have len : ∀ j, 0 < length (fun i => lin tx (b.axis j) i * b.extents j : Vec) := fun j => length_pos (hs j)
  have ax : ∀ j i, (fun i => lin tx (b.axis j) i * b.extents j : Vec) i * (1 / length (fun i => lin tx (b.axis j) i * b.extents j : Vec)) *
      length (fun i => lin tx (b.axis j) i * b.extents j : Vec) = lin tx (b.axis j) i * b.extents j := by
    intro j i
    have := (len j).ne'
    generalize length (fun i => lin tx (b.axis j) i * b.extents j : Vec) = L at *
    field_simp
  refine ⟨⟨transformPosition44 tx b.center, fun j => length (fun i => lin tx (b.axis j) i * b.extents j : Vec),
    ofCols fun j i => (lin tx (b.axis j) i * b.extents j) * (1 / length (fun i => lin tx (b.axis j) i * b.extents j : Vec))⟩, ?_, fun j => (len j).le, ?_, ?_⟩
  · unfold Obb.transform
    simp only [side_eq h]
    rw [if_neg (by push Not; exact ⟨hs 0, hs 1, hs 2⟩)]
    rfl
  · rw [region, region, tx_obox h]
    exact obox_rescale hb len fun j i => ax j i
  · rintro ho ⟨k, hk, hd⟩ i j
    have hdot : ∀ i j, lin tx (b.axis i) ⬝ᵥ lin tx (b.axis j) = k ^ 2 * if i = j then 1 else 0 := fun i j => by
      rw [lin_dot h hd, ho]
    have hlen : ∀ j, length (fun i => lin tx (b.axis j) i * b.extents j : Vec) = k * b.extents j := by
      intro j
      have := hdot j j
      rw [if_pos rfl, dp3] at this
      rw [length_eq n31, ls3]
      rw [show (lin tx (b.axis j) 0 * b.extents j) ^ 2 + (lin tx (b.axis j) 1 * b.extents j) ^ 2 + (lin tx (b.axis j) 2 * b.extents j) ^ 2
        = (k * b.extents j) ^ 2 by linear_combination b.extents j ^ 2 * this]
      exact Real.sqrt_sq (mul_nonneg hk.le (hb j).le)
    have hcol : ∀ j i, (lin tx (b.axis j) i * b.extents j) * (1 / length (fun i => lin tx (b.axis j) i * b.extents j : Vec)) =
        lin tx (b.axis j) i * (1 / k) := by
      intro j i
      rw [hlen]
      have := (hb j).ne'
      field_simp
    have hij := hdot i j
    rw [dp3] at hij ⊢
    simp only [Obb.axis, ofCols, hcol]
    have hk1 : (1 / k) ^ 2 * k ^ 2 = 1 := by field_simp
    generalize 1 / k = m at *
    linear_combination m ^ 2 * hij + (if i = j then 1 else 0) * hk1

/-- A shift satisfies the hypotheses. -/
example : let tx : Mat ℝ 4 4 := ![![1, 0, 0, 5], ![0, 1, 0, 6], ![0, 0, 1, 7], ![0, 0, 0, 1]]
    (∀ j : Fin 4, tx 3 j = if j = 3 then 1 else 0) ∧
    (∀ j, transformPosition44 tx (sampleO.center + sampleO.axis j) ≠ transformPosition44 tx sampleO.center) ∧
    ∃ k > 0, ∀ x y, eDist (transformPosition44 tx x) (transformPosition44 tx y) = k * eDist x y := by
  intro tx
  have h : ∀ j : Fin 4, tx 3 j = if j = 3 then 1 else 0 := by intro j; fin_cases j <;> rfl
  have t : ∀ v : Vec, transformPosition44 tx v = fun i => v i + ![5, 6, 7] i := by
    intro v
    funext i
    rw [tx_eq h]
    fin_cases i
    · show 1 * v 0 + 0 * v 1 + 0 * v 2 + 5 = v 0 + 5; ring
    · show 0 * v 0 + 1 * v 1 + 0 * v 2 + 6 = v 1 + 6; ring
    · show 0 * v 0 + 0 * v 1 + 1 * v 2 + 7 = v 2 + 7; ring
  refine ⟨h, fun j h0 => ?_, 1, one_pos, fun x y => ?_⟩
  · rw [t, t] at h0
    have hz : sampleO.axis j = 0 := by
      funext i
      have := congrFun h0 i
      simpa using this
    have := sampleO_orthonormal j j
    rw [hz] at this
    simp at this
  · rw [t, t, one_mul, eDist, eDist, sq3, sq3]
    congr 1
    ring

/-- C104 is violated: after a shear, the box is said not to contain the image of a point it contained. -/
theorem C104_transform_violated : ∃ (b b' : Obb) (tx : Mat ℝ 4 4) (p : Vec), (∀ j : Fin 4, tx 3 j = if j = 3 then 1 else 0) ∧
    (∀ i, 0 < b.extents i) ∧ Orthonormal b ∧ b.transform tx = some b' ∧ b.contains p = true ∧
    b'.contains (transformPosition44 tx p) = false := by
  let tx : Mat ℝ 4 4 := ![![1, 1, 0, 0], ![0, 1, 0, 0], ![0, 0, 1, 0], ![0, 0, 0, 1]]
  let b : Obb := ⟨![0, 0, 0], ![1, 1, 1], ofCols ![![1, 0, 0], ![0, 1, 0], ![0, 0, 1]]⟩
  have a0 : b.axis 0 = ![1, 0, 0] := rfl
  have a1 : b.axis 1 = ![0, 1, 0] := rfl
  have a2 : b.axis 2 = ![0, 0, 1] := rfl
  have h : ∀ j : Fin 4, tx 3 j = if j = 3 then 1 else 0 := by intro j; fin_cases j <;> rfl
  have hb : ∀ i, 0 < b.extents i := by intro i; fin_cases i <;> norm_num [b]
  have ho : Orthonormal b := by
    intro i j
    rw [dp3]
    fin_cases i <;> fin_cases j <;> simp only [Fin.zero_eta, Fin.mk_one, Fin.reduceFinMk, a0, a1, a2] <;> norm_num [show ∀ a b c : ℝ, (![a, b, c] : Vec) 2 = c from fun _ _ _ => rfl] <;> decide
  have l : ∀ v : Vec, lin tx v = ![v 0 + v 1, v 1, v 2] := by
    intro v
    funext i
    fin_cases i
    · show 1 * v 0 + 1 * v 1 + 0 * v 2 = v 0 + v 1; ring
    · show 0 * v 0 + 1 * v 1 + 0 * v 2 = v 1; ring
    · show 0 * v 0 + 0 * v 1 + 1 * v 2 = v 2; ring
  have t : ∀ v : Vec, transformPosition44 tx v = ![v 0 + v 1, v 1, v 2] := by
    intro v
    funext i
    rw [tx_eq h, l, show tx i.castSucc 3 = 0 by fin_cases i <;> rfl, add_zero]
  have hv : ∀ j, transformPosition44 tx (b.center + b.axis j) ≠ transformPosition44 tx b.center := by
    intro j h0
    rw [t, t] at h0
    have e0 := congrFun h0 0
    have e2 := congrFun h0 2
    fin_cases j
    · simp only [Fin.zero_eta, a0] at e0; norm_num [b] at e0
    · simp only [Fin.mk_one, a1] at e0; norm_num [b] at e0
    · simp only [Fin.reduceFinMk, a2] at e2; norm_num [b, show ∀ a b c : ℝ, (![a, b, c] : Vec) 2 = c from fun _ _ _ => rfl] at e2
  obtain ⟨b', hb', -, -, -⟩ := C104_transform_partial b hb tx h hv
  refine ⟨b, b', tx, ![1, 1, 1], h, hb, ho, hb', ?_, ?_⟩
  · simp only [Obb.contains, dot_dp, dp3, a0, a1, a2]
    norm_num [b, show ∀ a b c : ℝ, (![a, b, c] : Vec) 2 = c from fun _ _ _ => rfl]
  · unfold Obb.transform at hb'
    simp only [side_eq h] at hb'
    split_ifs at hb'
    obtain rfl := Option.some.inj hb'
    have e0 : (fun i => lin tx (b.axis 0) i * b.extents 0 : Vec) = ![1, 0, 0] := by
      rw [l, a0]; funext i; fin_cases i <;> norm_num [b, show ∀ a b c : ℝ, (![a, b, c] : Vec) 2 = c from fun _ _ _ => rfl]
    have el : length (![1, 0, 0] : Vec) = 1 := by
      rw [length_eq n31, ls3]; norm_num [show ∀ a b c : ℝ, (![a, b, c] : Vec) 2 = c from fun _ _ _ => rfl]
    have et : transformPosition44 tx ![1, 1, 1] = ![2, 1, 1] := by
      rw [t]; funext i; fin_cases i <;> norm_num [show ∀ a b c : ℝ, (![a, b, c] : Vec) 2 = c from fun _ _ _ => rfl]
    have ec : transformPosition44 tx b.center = ![0, 0, 0] := by
      rw [t]; funext i; fin_cases i <;> norm_num [b, show ∀ a b c : ℝ, (![a, b, c] : Vec) 2 = c from fun _ _ _ => rfl]
    simp only [Obb.contains, Bool.and_eq_false_iff, decide_eq_false_iff_not]
    left; left
    simp only [normalizeOut_eq n31, normalize_eq n31, dot_dp, dp3, et, ec]
    have ax : ∀ i, (lin tx (b.axis 0) i * b.extents 0) = (![1, 0, 0] : Vec) i := congrFun e0
    simp only [Obb.axis, ofCols] at ax e0 ⊢
    simp only [el, ax]
    norm_num [show ∀ a b c : ℝ, (![a, b, c] : Vec) 2 = c from fun _ _ _ => rfl]

/-- C104 is violated: moving a flat box by the identity leaves it without axes. -/
theorem C104_transform_flat_violated : ∃ b : Obb, Sized b ∧ Orthonormal b ∧ b.transform (identity 4 4) = none := by
  refine ⟨⟨![0, 0, 0], ![1, 1, 0], ofCols ![![1, 0, 0], ![0, 1, 0], ![0, 0, 1]]⟩, ?_, ?_, ?_⟩
  · intro i; fin_cases i <;> norm_num
  · intro i j
    rw [dp3]
    fin_cases i <;> fin_cases j <;> norm_num [Obb.axis, ofCols, show ∀ a b c : ℝ, (![a, b, c] : Vec) 2 = c from fun _ _ _ => rfl]
  · have h : ∀ j : Fin 4, (identity 4 4 : Mat ℝ 4 4) 3 j = if j = 3 then 1 else 0 := by intro j; fin_cases j <;> simp [identity]
    unfold Obb.transform
    simp only [side_eq h]
    rw [if_pos]
    right; right
    funext i
    exact mul_zero _

/-! ## C105: points, segments, triangles, spheres, axis-aligned boxes -/

theorem contains_region (b : Obb) (ho : Orthonormal b) (p : Vec) : b.contains p = true ↔ p ∈ region b := by
  rw [region, mem_obox_frame ho]
  simp only [Obb.contains, Bool.and_eq_true, decide_eq_true_eq, dot_dp, and_assoc]

/-- C105: `contains` is membership, of a point, of every point of a non-empty range, segment or triangle. -/
theorem C105_contains (b : Obb) (ho : Orthonormal b) (p q r : Vec) (pts : List Vec) :
    (b.contains p = true ↔ p ∈ region b) ∧
    (b.containsAll pts = true ↔ pts ≠ [] ∧ ∀ x ∈ pts, x ∈ region b) ∧
    (b.containsSegment p q = true ↔ segment ℝ p q ⊆ region b) ∧
    (b.containsTri p q r = true ↔ convexHull ℝ {p, q, r} ⊆ region b) := by
  refine ⟨contains_region b ho p, ?_, ?_, ?_⟩
  · unfold Obb.containsAll
    split_ifs with h
    · simp [h]
    · simp only [List.all_eq_true, contains_region b ho]; exact ⟨fun h' => ⟨h, h'⟩, fun h' => h'.2⟩
  · simp only [Obb.containsSegment, Bool.and_eq_true, contains_region b ho]
    exact ⟨fun h => (obox_convex _ _ _).segment_subset h.1 h.2, fun h => ⟨h (left_mem_segment _ _ _), h (right_mem_segment _ _ _)⟩⟩
  · simp only [Obb.containsTri, Bool.and_eq_true, contains_region b ho]
    constructor
    · rintro ⟨⟨h0, h1⟩, h2⟩
      refine convexHull_min ?_ (obox_convex _ _ _)
      rintro x (rfl | rfl | rfl) <;> assumption
    · intro h
      exact ⟨⟨h (subset_convexHull _ _ (by simp)), h (subset_convexHull _ _ (by simp))⟩, h (subset_convexHull _ _ (by simp))⟩

example : (![11, 2, 3] : Vec) ∈ region sampleO ∧ (![1, 3, 4] : Vec) ∉ region sampleO := by
  rw [← contains_region _ sampleO_orthonormal, ← contains_region _ sampleO_orthonormal]
  obtain ⟨h0, h1, h2⟩ := sampleO_axis
  simp only [Obb.contains, dot_dp, dp3, h0, h1, h2]
  simp only [sampleO]
  norm_num [abs_le, show ∀ a b c : ℝ, (![a, b, c] : Vec) 2 = c from fun _ _ _ => rfl]

/-- C105: `closest_point` is the nearest point of the box. -/
theorem C105_closest (b : Obb) (hb : Sized b) (ho : Orthonormal b) (p : Vec) : Nearest (region b) p (b.closestPoint p) := by
  have hc : ∀ j, -b.extents j ≤ b.extents j := fun j => by linarith [hb j]
  rw [nearest_iff]
  constructor
  · exact (mem_obox _ _ _ _).mpr ⟨_, _, _, abs_le.mpr (sclamp_mem (hc 0)), abs_le.mpr (sclamp_mem (hc 1)),
      abs_le.mpr (sclamp_mem (hc 2)), rfl⟩
  · intro x hx
    obtain ⟨t0, t1, t2, h0, h1, h2, rfl⟩ := (mem_obox _ _ _ _).mp hx
    rw [abs_le] at h0 h1 h2
    have e := dist_coord (c := b.center) ho p (sclamp (dot (fun i => p i - b.center i) (b.axis 0)) (-b.extents 0) (b.extents 0))
      (sclamp (dot (fun i => p i - b.center i) (b.axis 1)) (-b.extents 1) (b.extents 1))
      (sclamp (dot (fun i => p i - b.center i) (b.axis 2)) (-b.extents 2) (b.extents 2))
    refine (le_of_eq e).trans ?_
    rw [dist_coord ho]
    simp only [dot_dp]
    exact add_le_add (add_le_add (sclamp_near (hc 0) h0.1 h0.2) (sclamp_near (hc 1) h1.1 h1.2)) (sclamp_near (hc 2) h2.1 h2.2)

/-- C105: a box intersects a sphere exactly when they share a point. -/
theorem C105_sphere (b : Obb) (hb : Sized b) (ho : Orthonormal b) (s : Sphere) (hs : 0 ≤ s.radius) :
    b.intersectsSphere s = true ↔ Meets (region b) (ball s.center s.radius) := by
  have hn := (nearest_iff _ _ _).mp (C105_closest b hb ho s.center)
  rw [Obb.intersectsSphere, decide_eq_true_eq, dsq, ← sq, sqDist_comm]
  constructor
  · intro h
    exact ⟨_, hn.1, (Verif.Proofs.Sphere.mem_ball hs _).mpr (by rw [sqDist_comm]; exact h)⟩
  · rintro ⟨x, hx, hxs⟩
    rw [Verif.Proofs.Sphere.mem_ball hs, sqDist_comm] at hxs
    exact le_trans (hn.2 x hx) hxs

/-- The triangle in the coordinates of the box. -/
theorem intersectsTri_local (b : Obb) (p0 p1 p2 : Vec) : b.intersectsTri p0 p1 p2 =
    (⟨0, b.extents⟩ : Box).intersectsTri (fun j => (fun i => p0 i - b.center i : Point) ⬝ᵥ b.axis j)
      (fun j => (fun i => p1 i - b.center i : Point) ⬝ᵥ b.axis j) (fun j => (fun i => p2 i - b.center i : Point) ⬝ᵥ b.axis j) := by
  have loc : ∀ v : Vec, mulVec (transpose b.axes) v = fun j => v ⬝ᵥ b.axis j := by
    intro v
    rw [Verif.Proofs.Matrix.mulVec_eq, Verif.Proofs.Matrix.transpose_eq]
    funext j
    simp only [Matrix.mulVec, dp3, Matrix.of_apply, Obb.axis]
    ring
  unfold Obb.intersectsTri Box.intersectsTri
  simp only [loc, Pi.zero_apply, zero_sub, zero_add]

/-- C105 (partial): a box intersects a triangle whose corners are not collinear exactly when they share a point.  Missing: for
collinear corners the answer is always false (`C105_triangle_violated`). -/
theorem C105_triangle_partial (b : Obb) (hb : Sized b) (ho : Orthonormal b) (p0 p1 p2 : Vec) (hp : Proper p0 p1 p2) :
    b.intersectsTri p0 p1 p2 = true ↔ Meets (region b) (convexHull ℝ {p0, p1, p2}) := by
  rw [intersectsTri_local, Verif.Props.Boxes.C101_triangle_partial ⟨0, b.extents⟩ hb _ _ _ (proper_local ho b.center hp)]
  constructor
  · rintro ⟨x, hx, ht⟩
    obtain ⟨u, v, w, hu, hv, hw, h1, h⟩ := (mem_tri _ _ _ _).mp ht
    refine ⟨fun i => u * p0 i + v * p1 i + w * p2 i, ?_, (mem_tri _ _ _ _).mpr ⟨u, v, w, hu, hv, hw, h1, fun i => rfl⟩⟩
    have key : ∀ j, (fun i => u * p0 i + v * p1 i + w * p2 i - b.center i : Point) ⬝ᵥ b.axis j = x j := by
      intro j
      rw [h j]
      simp only [dp3]
      linear_combination (b.center 0 * b.axis j 0 + b.center 1 * b.axis j 1 + b.center 2 * b.axis j 2) * h1
    have hx : ∀ i, |x i - 0| ≤ b.extents i := hx
    simp only [sub_zero] at hx
    rw [region, mem_obox_frame ho, key, key, key]
    exact ⟨hx 0, hx 1, hx 2⟩
  · rintro ⟨x, hx, ht⟩
    obtain ⟨u, v, w, hu, hv, hw, h1, h⟩ := (mem_tri _ _ _ _).mp ht
    rw [region, mem_obox_frame ho] at hx
    refine ⟨fun j => (fun i => x i - b.center i : Point) ⬝ᵥ b.axis j, ?_, (mem_tri _ _ _ _).mpr ⟨u, v, w, hu, hv, hw, h1, fun j => ?_⟩⟩
    · show ∀ j, |_ - (0 : ℝ)| ≤ _
      intro j
      rw [sub_zero]
      fin_cases j
      · exact hx.1
      · exact hx.2.1
      · exact hx.2.2
    · simp only [dp3, h]
      linear_combination (b.center 0 * b.axis j 0 + b.center 1 * b.axis j 1 + b.center 2 * b.axis j 2) * h1

example : Sized sampleO ∧ Orthonormal sampleO ∧ Proper ![0, 0, 0] ![1, 0, 0] ![0, 1, 0] := by
  refine ⟨sampleO_sized, sampleO_orthonormal, ?_⟩
  rw [proper_iff, ne_eq, vec_zero]
  intro h
  have := (cross3 _ _).2.2.symm.trans h.2.2
  norm_num at this

/-- C105 is violated for triangles whose corners are collinear: one with all its corners inside the box is not reported. -/
theorem C105_triangle_violated : ∃ (b : Obb) (p0 p1 p2 : Vec), Sized b ∧ Orthonormal b ∧ b.intersectsTri p0 p1 p2 = false ∧
    convexHull ℝ {p0, p1, p2} ⊆ region b := by
  obtain ⟨a0, a1, a2⟩ := sampleO_axis
  refine ⟨sampleO, ![0, 2, 3], ![1, 2, 3], ![2, 2, 3], sampleO_sized, sampleO_orthonormal, ?_, ?_⟩
  · rw [intersectsTri_local]
    apply Verif.Props.Boxes.C101_degenerate
    rw [proper_iff, not_not, vec_zero]
    have y : ∀ p : Vec, p 1 = 2 → p 2 = 3 → (fun i => p i - sampleO.center i : Point) ⬝ᵥ sampleO.axis 1 = 0 ∧
        (fun i => p i - sampleO.center i : Point) ⬝ᵥ sampleO.axis 2 = 0 := by
      intro p h1 h2
      rw [a1, a2, dp3, dp3]
      simp only [sampleO, h1, h2]
      norm_num [show ∀ a b c : ℝ, (![a, b, c] : Vec) 2 = c from fun _ _ _ => rfl]
    obtain ⟨c0, c1, c2⟩ := cross3 (fun j => (fun i => (![1, 2, 3] : Vec) i - sampleO.center i : Point) ⬝ᵥ sampleO.axis j -
      (fun i => (![0, 2, 3] : Vec) i - sampleO.center i : Point) ⬝ᵥ sampleO.axis j) (fun j => (fun i => (![2, 2, 3] : Vec) i - sampleO.center i : Point) ⬝ᵥ sampleO.axis j -
      (fun i => (![0, 2, 3] : Vec) i - sampleO.center i : Point) ⬝ᵥ sampleO.axis j)
    have y0 := y ![0, 2, 3] rfl rfl
    have y1 := y ![1, 2, 3] rfl rfl
    have y2 := y ![2, 2, 3] rfl rfl
    rw [c0, c1, c2, y0.1, y0.2, y1.1, y1.2, y2.1, y2.2]
    norm_num
  · refine ((C105_contains sampleO sampleO_orthonormal _ _ _ []).2.2.2).mp ?_
    simp only [Obb.containsTri, Obb.contains, dot_dp, dp3, a0, a1, a2]
    simp only [sampleO]
    norm_num [abs_le, show ∀ a b c : ℝ, (![a, b, c] : Vec) 2 = c from fun _ _ _ => rfl]

/-- C105: an axis-aligned box contains an oriented one exactly when all points of the one are points of the other; the box
made from an oriented box is the smallest one around it.  The axes may be any vectors. -/
theorem C105_aligned (o : Obb) (ho : Sized o) :
    (∀ b : Box, boxContainsObb b o = true ↔ region o ⊆ Verif.Props.Boxes.region b) ∧
    TightAround (Verif.Props.Boxes.region (fromObb o)) (region o) := by
  constructor
  · intro b
    simp only [boxContainsObb, Bool.and_eq_true, List.all_eq_true, contains_iff]
    constructor
    · rintro ⟨h1, h2⟩
      refine obb_spanned contains_mem _ (box_convex _ _) ?_
      intro x hx
      rcases List.mem_cons.mp hx with rfl | hx
      · exact h1
      · obtain ⟨k, hk, rfl⟩ := List.mem_map.mp hx
        exact h2 k hk
    · intro h
      exact ⟨h (corner_mem ho _), fun k _ => h (corner_mem ho k)⟩
  · have ht := (Verif.Props.Boxes.C98_from_range (o.minCorner :: containsOrder.map o.corner)).1 (by simp)
    obtain ⟨h1, h2⟩ := ht
    refine ⟨obb_spanned contains_mem _ (box_convex _ _) fun x hx => h1 hx, fun l u h => h2 l u fun x hx => ?_⟩
    exact h (obb_corners ho _ x hx)

/-! ## C106: the separating-axis tests of two boxes -/

/-- C106 (partial): two oriented boxes are reported to intersect exactly when none of the six directions of their axes
separates them.  Missing: disjoint boxes may have no separating direction among these six (`C106_violated`). -/
theorem C106_directions_partial (a b : Obb) (ha : Sized a) (hb : Sized b) :
    a.intersectsObb b = true ↔ ∀ n : Point, (∃ i, n = a.axis i ∨ n = b.axis i) → ∃ x ∈ region a, ∃ y ∈ region b, n ⬝ᵥ x = n ⬝ᵥ y := by
  have key := fun n => sat_iff (obox_convex _ _ _) (obox_convex _ _ _) (obb_corners ha _) (obb_corners hb _) (obb_spanned sat_mem)
    (obb_spanned sat_mem) n
  unfold Obb.intersectsObb
  simp only [List.all_cons, List.all_nil, Bool.and_true, Bool.and_eq_true, List.all_eq_true, List.mem_finRange, true_implies]
  constructor
  · rintro ⟨h1, h2⟩ n ⟨i, rfl | rfl⟩
    · exact (key _).mp (h1 i)
    · exact (key _).mp (h2 i)
  · intro h
    exact ⟨fun i => (key _).mpr (h _ ⟨i, Or.inl rfl⟩), fun i => (key _).mpr (h _ ⟨i, Or.inr rfl⟩)⟩

/-- C106: two oriented boxes that share a point are reported to intersect. -/
theorem C106_no_misses (a b : Obb) (ha : Sized a) (hb : Sized b) (h : Meets (region a) (region b)) : a.intersectsObb b = true := by
  rw [C106_directions_partial a b ha hb]
  obtain ⟨x, hx, hy⟩ := h
  exact fun n _ => ⟨x, hx, x, hy, rfl⟩

/-- C106 (partial): for boxes with the same axes the test is exact. -/
theorem C106_parallel_partial (a b : Obb) (ha : Sized a) (hb : Sized b) (hao : Orthonormal a) (h : a.axes = b.axes) :
    a.intersectsObb b = true ↔ Meets (region a) (region b) := by
  refine ⟨fun hi => ?_, C106_no_misses a b ha hb⟩
  rw [C106_directions_partial a b ha hb] at hi
  have hax : b.axis = a.axis := by funext j i; simp only [Obb.axis, h]
  have hbo : Orthonormal b := by unfold Orthonormal; rw [hax]; exact hao
  have key : ∀ j, ∃ t, |t - a.center ⬝ᵥ a.axis j| ≤ a.extents j ∧ |t - b.center ⬝ᵥ a.axis j| ≤ b.extents j := by
    intro j
    obtain ⟨x, hx, y, hy, e⟩ := hi _ ⟨j, Or.inl rfl⟩
    rw [region, mem_obox_frame hao] at hx
    rw [region, mem_obox_frame hbo, hax] at hy
    have sub : ∀ x c : Point, (fun i => x i - c i : Point) ⬝ᵥ a.axis j = a.axis j ⬝ᵥ x - c ⬝ᵥ a.axis j := by
      intro x c; simp only [dp3]; ring
    have hxj : |(fun i => x i - a.center i : Point) ⬝ᵥ a.axis j| ≤ a.extents j := by
      fin_cases j
      · exact hx.1
      · exact hx.2.1
      · exact hx.2.2
    have hyj : |(fun i => y i - b.center i : Point) ⬝ᵥ a.axis j| ≤ b.extents j := by
      fin_cases j
      · exact hy.1
      · exact hy.2.1
      · exact hy.2.2
    exact ⟨a.axis j ⬝ᵥ x, by rw [← sub]; exact hxj, by rw [e, ← sub]; exact hyj⟩
  choose t h1 h2 using key
  obtain ⟨k0, k1, k2⟩ := coord (c := 0) hao (t 0) (t 1) (t 2)
  have kj : ∀ (c : Point) j, (fun i => pt 0 a.axis (t 0) (t 1) (t 2) i - c i : Point) ⬝ᵥ a.axis j = t j - c ⬝ᵥ a.axis j := by
    intro c j
    have : (fun i => pt 0 a.axis (t 0) (t 1) (t 2) i - c i : Point) ⬝ᵥ a.axis j =
        (fun i => pt 0 a.axis (t 0) (t 1) (t 2) i - (0 : Point) i : Point) ⬝ᵥ a.axis j - c ⬝ᵥ a.axis j := by
      simp only [dp3, Pi.zero_apply]; ring
    rw [this]
    fin_cases j
    · exact congrArg (· - _) k0
    · exact congrArg (· - _) k1
    · exact congrArg (· - _) k2
  refine ⟨pt 0 a.axis (t 0) (t 1) (t 2), ?_, ?_⟩
  · rw [region, mem_obox_frame hao, kj, kj, kj]
    exact ⟨h1 0, h1 1, h1 2⟩
  · rw [region, mem_obox_frame hbo, hax, kj, kj, kj]
    exact ⟨h2 0, h2 1, h2 2⟩

example : Sized sampleO ∧ Orthonormal sampleO ∧ Sized (sampleO.translate ![1, 2, 3]) ∧ sampleO.axes = (sampleO.translate ![1, 2, 3]).axes :=
  ⟨sampleO_sized, sampleO_orthonormal, sampleO_sized, rfl⟩

/-- C106 is violated: two boxes that share no point are reported to intersect. -/
theorem C106_violated : ∃ a b : Obb, Sized a ∧ Sized b ∧ Orthonormal a ∧ Orthonormal b ∧ a.intersectsObb b = true ∧
    ¬ Meets (region a) (region b) := by
  let a : Obb := ⟨![0, 0, 0], ![10, 1, 1], ofCols ![![1, 0, 0], ![0, 3 / 5, 4 / 5], ![0, -4 / 5, 3 / 5]]⟩
  let b : Obb := ⟨![0, 0, 3], ![10, 1, 1], ofCols ![![0, 1, 0], ![3 / 5, 0, 4 / 5], ![-4 / 5, 0, 3 / 5]]⟩
  have a0 : a.axis 0 = ![1, 0, 0] := rfl
  have a1 : a.axis 1 = ![0, 3 / 5, 4 / 5] := rfl
  have a2 : a.axis 2 = ![0, -4 / 5, 3 / 5] := rfl
  have b0 : b.axis 0 = ![0, 1, 0] := rfl
  have b1 : b.axis 1 = ![3 / 5, 0, 4 / 5] := rfl
  have b2 : b.axis 2 = ![-4 / 5, 0, 3 / 5] := rfl
  have ha : Sized a := by intro i; fin_cases i <;> norm_num [a]
  have hb : Sized b := by intro i; fin_cases i <;> norm_num [b]
  have hao : Orthonormal a := by
    intro i j
    rw [dp3]
    fin_cases i <;> fin_cases j <;> simp only [Fin.zero_eta, Fin.mk_one, Fin.reduceFinMk, a0, a1, a2] <;> norm_num [show ∀ a b c : ℝ, (![a, b, c] : Vec) 2 = c from fun _ _ _ => rfl] <;> decide
  have hbo : Orthonormal b := by
    intro i j
    rw [dp3]
    fin_cases i <;> fin_cases j <;> simp only [Fin.zero_eta, Fin.mk_one, Fin.reduceFinMk, b0, b1, b2] <;> norm_num [show ∀ a b c : ℝ, (![a, b, c] : Vec) 2 = c from fun _ _ _ => rfl] <;> decide
  refine ⟨a, b, ha, hb, hao, hbo, ?_, ?_⟩
  · rw [C106_directions_partial a b ha hb]
    have xa : ∀ s : ℝ, |s| ≤ 10 → pt a.center a.axis s 0 0 ∈ region a := fun s hs =>
      (mem_obox _ _ _ _).mpr ⟨s, 0, 0, hs, by norm_num [a], by norm_num [a, show ∀ a b c : ℝ, (![a, b, c] : Vec) 2 = c from fun _ _ _ => rfl], rfl⟩
    have yb : ∀ s : ℝ, |s| ≤ 10 → pt b.center b.axis s 0 0 ∈ region b := fun s hs =>
      (mem_obox _ _ _ _).mpr ⟨s, 0, 0, hs, by norm_num [b], by norm_num [b, show ∀ a b c : ℝ, (![a, b, c] : Vec) 2 = c from fun _ _ _ => rfl], rfl⟩
    have go : ∀ (n : Point) (s t : ℝ), |s| ≤ 10 → |t| ≤ 10 → n 0 * s = n 1 * t + n 2 * 3 →
        ∃ x ∈ region a, ∃ y ∈ region b, n ⬝ᵥ x = n ⬝ᵥ y := by
      intro n s t hs ht e
      refine ⟨_, xa s hs, _, yb t ht, ?_⟩
      rw [dp3, dp3]
      simp only [pt, a0, a1, a2, b0, b1, b2]
      norm_num [a, b, show ∀ a b c : ℝ, (![a, b, c] : Vec) 2 = c from fun _ _ _ => rfl]
      linarith
    rintro n ⟨i, rfl | rfl⟩ <;> fin_cases i <;> simp only [Fin.zero_eta, Fin.mk_one, Fin.reduceFinMk]
    · rw [a0]; exact go _ 0 0 (by norm_num) (by norm_num) (by norm_num [show ∀ a b c : ℝ, (![a, b, c] : Vec) 2 = c from fun _ _ _ => rfl])
    · rw [a1]; exact go _ 0 (-4) (by norm_num) (by norm_num [abs_le]) (by norm_num [show ∀ a b c : ℝ, (![a, b, c] : Vec) 2 = c from fun _ _ _ => rfl])
    · rw [a2]; exact go _ 0 (9 / 4) (by norm_num) (by norm_num [abs_le]) (by norm_num [show ∀ a b c : ℝ, (![a, b, c] : Vec) 2 = c from fun _ _ _ => rfl])
    · rw [b0]; exact go _ 0 0 (by norm_num) (by norm_num) (by norm_num [show ∀ a b c : ℝ, (![a, b, c] : Vec) 2 = c from fun _ _ _ => rfl])
    · rw [b1]; exact go _ 4 0 (by norm_num [abs_le]) (by norm_num) (by norm_num [show ∀ a b c : ℝ, (![a, b, c] : Vec) 2 = c from fun _ _ _ => rfl])
    · rw [b2]; exact go _ (-9 / 4) 0 (by norm_num [abs_le]) (by norm_num) (by norm_num [show ∀ a b c : ℝ, (![a, b, c] : Vec) 2 = c from fun _ _ _ => rfl])
  · rintro ⟨x, hx, hy⟩
    obtain ⟨t0, t1, t2, h0, h1, h2, e⟩ := (mem_obox _ _ _ _).mp hx
    obtain ⟨s0, s1, s2, k0, k1, k2, e'⟩ := (mem_obox _ _ _ _).mp hy
    have z := congrFun e 2
    have z' := congrFun e' 2
    simp only [pt, a0, a1, a2, b0, b1, b2] at z z'
    rw [abs_le] at h1 h2 k1 k2
    norm_num [a, b, show ∀ a b c : ℝ, (![a, b, c] : Vec) 2 = c from fun _ _ _ => rfl] at z z' h1 h2 k1 k2
    linarith

/-- C106 (partial): an axis-aligned and an oriented box are reported to intersect exactly when none of the six directions of
their axes separates them.  Missing: as for two oriented boxes (`C106_aligned_violated`). -/
theorem C106_aligned_partial (a : Box) (b : Obb) (ha : Verif.Props.Boxes.Valid a) (hb : Sized b) :
    boxIntersectsObb a b = true ↔ ∀ n : Point, (∃ i, n = Pi.single i 1 ∨ n = b.axis i) →
      ∃ x ∈ Verif.Props.Boxes.region a, ∃ y ∈ region b, n ⬝ᵥ x = n ⬝ᵥ y := by
  have key := fun i => satIndex_iff (i := i) (obox_convex b.center b.extents b.axis) (box_convex a.center a.extents) (obb_corners hb satOrder)
    (obb_spanned sat_mem) (minCorner_mem ha) (maxCorner_mem ha)
    (fun y hy => by rw [minCorner_eq, maxCorner_eq]; exact (mem_box _ _ _).mp hy i)
  have hcs : a.minCorner :: satOrder.map a.corner = (ofBox a).minCorner :: satOrder.map (ofBox a).corner := by
    rw [show (ofBox a).corner = a.corner from funext (ofBox_corner a), show (ofBox a).minCorner = a.minCorner from ofBox_corner a _]
  have ha' : ∀ i, 0 ≤ (ofBox a).extents i := ha
  have key2 := fun n => sat_iff (obox_convex b.center b.extents b.axis) (box_convex a.center a.extents) (obb_corners hb satOrder)
    (q := a.minCorner) (qs := satOrder.map a.corner) (by rw [hcs, ← ofBox_region]; exact obb_corners ha' satOrder)
    (obb_spanned sat_mem) (by rw [hcs, ← ofBox_region]; exact obb_spanned sat_mem) n
  have swap : ∀ n : Point, (∃ x ∈ orientedBox b.center b.extents b.axis, ∃ y ∈ box a.center a.extents, n ⬝ᵥ x = n ⬝ᵥ y) ↔
      ∃ x ∈ Verif.Props.Boxes.region a, ∃ y ∈ region b, n ⬝ᵥ x = n ⬝ᵥ y := fun n =>
    ⟨fun ⟨x, hx, y, hy, e⟩ => ⟨y, hy, x, hx, e.symm⟩, fun ⟨x, hx, y, hy, e⟩ => ⟨y, hy, x, hx, e.symm⟩⟩
  have fin3 : ∀ f : Fin 3 → Bool, (if f 0 = false ∨ f 1 = false ∨ f 2 = false then false else true) = true ↔ ∀ i, f i = true := by
    intro f
    rw [Fin.forall_fin_succ, Fin.forall_fin_succ, Fin.forall_fin_one]
    show _ ↔ f 0 = true ∧ f 1 = true ∧ f 2 = true
    cases f 0 <;> cases f 1 <;> cases f 2 <;> simp
  have seq : ∀ (p q : Prop) [Decidable p] [Decidable q], (if p then false else if q then false else true) = true ↔
      (if p then false else true) = true ∧ (if q then false else true) = true := by
    intro p q _ _; split_ifs <;> simp
  unfold boxIntersectsObb
  rw [seq]
  rw [fin3 fun i => (satOfIndex i b.minCorner (satOrder.map b.corner)).testRange (a.minCorner i) (a.maxCorner i),
    fin3 fun i => (satOf (b.axis i) b.minCorner (satOrder.map b.corner)).testOther (satOf (b.axis i) a.minCorner (satOrder.map a.corner))]
  simp only [key, key2, swap]
  constructor
  · rintro ⟨h1, h2⟩ n ⟨i, rfl | rfl⟩
    · exact h1 i
    · exact h2 i
  · exact fun h => ⟨fun i => h _ ⟨i, Or.inl rfl⟩, fun i => h _ ⟨i, Or.inr rfl⟩⟩

/-- C106 is violated: an axis-aligned and an oriented box that share no point are reported to intersect. -/
theorem C106_aligned_violated : ∃ (a : Box) (b : Obb), Verif.Props.Boxes.Valid a ∧ Sized b ∧ Orthonormal b ∧
    boxIntersectsObb a b = true ∧ ¬ Meets (Verif.Props.Boxes.region a) (region b) := by
  let a : Box := ⟨![0, 0, 0], ![10, 1, 1]⟩
  let b : Obb := ⟨![0, 12 / 5, 9 / 5], ![10, 1, 1],
    ofCols ![![0, 3 / 5, -4 / 5], ![3 / 5, 16 / 25, 12 / 25], ![-4 / 5, 12 / 25, 9 / 25]]⟩
  have b0 : b.axis 0 = ![0, 3 / 5, -4 / 5] := rfl
  have b1 : b.axis 1 = ![3 / 5, 16 / 25, 12 / 25] := rfl
  have b2 : b.axis 2 = ![-4 / 5, 12 / 25, 9 / 25] := rfl
  have ha : Verif.Props.Boxes.Valid a := by intro i; fin_cases i <;> norm_num [a]
  have hb : Sized b := by intro i; fin_cases i <;> norm_num [b]
  have hbo : Orthonormal b := by
    intro i j
    rw [dp3]
    fin_cases i <;> fin_cases j <;> simp only [Fin.zero_eta, Fin.mk_one, Fin.reduceFinMk, b0, b1, b2] <;> norm_num [show ∀ a b c : ℝ, (![a, b, c] : Vec) 2 = c from fun _ _ _ => rfl] <;> decide
  refine ⟨a, b, ha, hb, hbo, ?_, ?_⟩
  · rw [C106_aligned_partial a b ha hb]
    have xa : ∀ s : ℝ, |s| ≤ 10 → (![s, 0, 0] : Point) ∈ Verif.Props.Boxes.region a := by
      intro s hs i
      fin_cases i
      · simpa [a] using hs
      · norm_num [a]
      · norm_num [a, show ∀ a b c : ℝ, (![a, b, c] : Vec) 2 = c from fun _ _ _ => rfl]
    have yb : ∀ s : ℝ, |s| ≤ 10 → pt b.center b.axis s 0 0 ∈ region b := fun s hs =>
      (mem_obox _ _ _ _).mpr ⟨s, 0, 0, hs, by norm_num [b], by norm_num [b, show ∀ a b c : ℝ, (![a, b, c] : Vec) 2 = c from fun _ _ _ => rfl], rfl⟩
    have go : ∀ (n : Point) (s t : ℝ), |s| ≤ 10 → |t| ≤ 10 → n 0 * s = n 1 * (12 / 5 + t * (3 / 5)) + n 2 * (9 / 5 - t * (4 / 5)) →
        ∃ x ∈ Verif.Props.Boxes.region a, ∃ y ∈ region b, n ⬝ᵥ x = n ⬝ᵥ y := by
      intro n s t hs ht e
      refine ⟨_, xa s hs, _, yb t ht, ?_⟩
      rw [dp3, dp3]
      simp only [pt, b0, b1, b2]
      norm_num [b, show ∀ a b c : ℝ, (![a, b, c] : Vec) 2 = c from fun _ _ _ => rfl]
      linarith
    rintro n ⟨i, rfl | rfl⟩ <;> fin_cases i <;> simp only [Fin.zero_eta, Fin.mk_one, Fin.reduceFinMk]
    · exact go _ 0 0 (by norm_num) (by norm_num) (by simp)
    · exact go _ 0 (-4) (by norm_num) (by norm_num [abs_le]) (by norm_num [Pi.single_apply, show ¬ (2 : Fin 3) = 1 by decide, show ¬ (1 : Fin 3) = 2 by decide, show ¬ (0 : Fin 3) = 2 by decide])
    · exact go _ 0 (9 / 4) (by norm_num) (by norm_num [abs_le]) (by norm_num [Pi.single_apply, show ¬ (2 : Fin 3) = 1 by decide, show ¬ (1 : Fin 3) = 2 by decide, show ¬ (0 : Fin 3) = 2 by decide])
    · rw [b0]; exact go _ 0 0 (by norm_num) (by norm_num) (by norm_num [show ∀ a b c : ℝ, (![a, b, c] : Vec) 2 = c from fun _ _ _ => rfl])
    · rw [b1]; exact go _ 4 0 (by norm_num [abs_le]) (by norm_num) (by norm_num [show ∀ a b c : ℝ, (![a, b, c] : Vec) 2 = c from fun _ _ _ => rfl])
    · rw [b2]; exact go _ (-9 / 4) 0 (by norm_num [abs_le]) (by norm_num) (by norm_num [show ∀ a b c : ℝ, (![a, b, c] : Vec) 2 = c from fun _ _ _ => rfl])
  · rintro ⟨x, hx, hy⟩
    obtain ⟨s0, s1, s2, k0, k1, k2, e'⟩ := (mem_obox _ _ _ _).mp hy
    have hx := (mem_box _ _ _).mp hx
    have x1 := hx 1
    have x2 := hx 2
    have y1 := congrFun e' 1
    have y2 := congrFun e' 2
    simp only [pt, b0, b1, b2] at y1 y2
    rw [abs_le] at k1 k2
    norm_num [a, b, show ∀ a b c : ℝ, (![a, b, c] : Vec) 2 = c from fun _ _ _ => rfl] at x1 x2 y1 y2 k1 k2
    linarith

end Verif.Props.Obb
