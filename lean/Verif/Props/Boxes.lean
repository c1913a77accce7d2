import Verif.Model.Boxes
import Verif.Proofs.Boxes
import Verif.Proofs.BoxTri
import Verif.Spec.Boxes
import Mathlib.MeasureTheory.Measure.Lebesgue.Basic

/-!
# C98-C101: axis-aligned bounding boxes

Exact arithmetic.  A `Box` with centre `c` and half-sides `e` stands for the set `box c e`.
-/

namespace Verif.Props.Boxes

open Verif.Model.Matrix Verif.Model.Vector Verif.Model.Transform Verif.Model.Geometry Verif.Model.Boxes
open Verif.Proofs.Vector Verif.Proofs.Transform Verif.Proofs.Geometry Verif.Proofs.Boxes Verif.Spec.Geometry

/-- The set a box stands for. -/
def region (b : Box) : Set Point := box b.center b.extents

/-- The half-sides are not negative. -/
def Valid (b : Box) : Prop := ∀ i, 0 ≤ b.extents i

/-- A box that is not a cube and not at the origin. -/
noncomputable def sample : Box := ⟨![1, 2, 3], ![1, 1 / 2, 2]⟩

theorem sample_valid : Valid sample := by intro i; fin_cases i <;> norm_num [sample]

/-! ## C98: construction, measures, transformation, containment -/

/-- C98: the box from two corners is exactly the points between them. -/
theorem C98_from_min_max (lo hi : Vec) : region (fromMinMax lo hi) = Set.Icc lo hi := by
  ext x
  show x ∈ box _ _ ↔ _
  rw [mem_fromMinMax, Set.mem_Icc, Pi.le_def, Pi.le_def, forall_and]

example : (![1 / 2, 2, 1] : Vec) ∈ region (fromMinMax ![0, 1, 1] ![1, 5, 1]) := by
  rw [C98_from_min_max, Set.mem_Icc, Pi.le_def, Pi.le_def]
  constructor <;> intro i <;> fin_cases i <;> norm_num

/-- C98: the box from two or more points is the smallest box around them. -/
theorem C98_from_points (p0 p1 : Vec) (pts : List Vec) :
    TightAround (region (fromPoints p0 p1 pts)) {p | p ∈ p0 :: p1 :: pts} :=
  tight (fun i a => minMany_le _ _ _ _ _) (fun i a => le_maxMany _ _ _ _ _)

/-- C98: the box from a range of points is the smallest box around them; the box of an empty range is the origin. -/
theorem C98_from_range (pts : List Vec) :
    (pts ≠ [] → TightAround (region (fromRange pts)) {p | p ∈ pts}) ∧ (pts = [] → region (fromRange pts) = {0}) := by
  constructor
  · intro h
    cases pts with
    | nil => exact absurd rfl h
    | cons p pts =>
      rw [region, fromRange, if_neg h]
      exact tight (fun i a => foldl_min_le _ _ _ _) (fun i a => foldl_max_le _ _ _ _)
  · rintro rfl
    ext x
    show x ∈ box _ _ ↔ _
    rw [fromRange, if_pos rfl, mem_box, Set.mem_singleton_iff, funext_iff]
    refine forall_congr' fun i => ?_
    simp only [Pi.zero_apply]
    constructor
    · rintro ⟨h1, h2⟩; linarith
    · intro h; constructor <;> linarith

example : ({p | p ∈ [![1, 2, 3], ![0, 5, 1]]} : Set Vec).Nonempty := ⟨![1, 2, 3], by simp⟩

/-- C98: the box of a sphere is the smallest box around the ball. -/
theorem C98_from_sphere (s : Sphere) (h : 0 ≤ s.radius) : TightAround (region (fromSphere s)) (ball s.center s.radius) := by
  have key : ∀ x, x ∈ ball s.center s.radius ↔ sqDist x s.center ≤ s.radius ^ 2 := fun x => Real.sqrt_le_left h
  have ends : ∀ i, ∀ k : ℝ, k ^ 2 = s.radius ^ 2 →
      (fun j => if j = i then s.center i + k else s.center j : Point) ∈ ball s.center s.radius := by
    intro i k hk
    rw [key, sq3, ← hk]
    fin_cases i <;> simp
  constructor
  · intro x hx
    show x ∈ box s.center _
    intro i
    rw [key, sq3] at hx
    refine abs_le_of_sq_le_sq (le_trans ?_ hx) h
    have := sq_nonneg (x 0 - s.center 0)
    have := sq_nonneg (x 1 - s.center 1)
    have := sq_nonneg (x 2 - s.center 2)
    fin_cases i <;> simp only [Fin.zero_eta, Fin.mk_one, Fin.reduceFinMk] <;> linarith
  · intro l u hS x hx
    have hx : x ∈ box s.center (fun _ => s.radius) := hx
    rw [mem_box] at hx
    refine ⟨fun i => le_trans ?_ (hx i).1, fun i => le_trans (hx i).2 ?_⟩
    · have := (hS (ends i (-s.radius) (by ring))).1 i
      simp at this
      linarith
    · have := (hS (ends i s.radius rfl)).2 i
      simp at this
      linarith

/-- C98: each named corner takes the maximum coordinate along the axes whose flag is set and the minimum along the others. -/
theorem C98_corner (b : Box) (k : Corner) :
    b.corner k = ![b.center 0 + (if k.x then b.extents 0 else -b.extents 0),
      b.center 1 + (if k.y then b.extents 1 else -b.extents 1), b.center 2 + (if k.z then b.extents 2 else -b.extents 2)] ∧
    (∀ i, b.minCorner i = b.center i - b.extents i) ∧ (∀ i, b.maxCorner i = b.center i + b.extents i) ∧
    fromMinMax b.minCorner b.maxCorner = b := by
  refine ⟨?_, minCorner_eq b, maxCorner_eq b, ?_⟩
  · obtain ⟨x, y, z⟩ := k
    funext i
    cases x <;> cases y <;> cases z <;> fin_cases i <;> simp [Box.corner, cornerOffset]
  · obtain ⟨c, e⟩ := b
    simp only [fromMinMax, minCorner_eq, maxCorner_eq, Box.mk.injEq]
    constructor <;> funext i <;> ring

/-- C98: the measures of a box: sides, diagonal, shortest and longest side, volume, and whether some side vanishes. -/
theorem C98_measures (b : Box) :
    (∀ i, b.side i = b.maxCorner i - b.minCorner i) ∧
    b.diagonal = eDist b.minCorner b.maxCorner ∧
    IsLeast (Set.range b.side) b.shortestSide ∧ IsGreatest (Set.range b.side) b.longestSide ∧
    b.volume = b.side 0 * b.side 1 * b.side 2 ∧
    (b.degenerate = true ↔ ∃ i, b.side i ≤ 0) := by
  refine ⟨fun i => by rw [minCorner_eq, maxCorner_eq, Box.side]; ring, ?_, ⟨?_, ?_⟩, ⟨?_, ?_⟩, ?_, ?_⟩
  · rw [Box.diagonal, length_eq n31, eDist, sq3, ls3]
    simp only [minCorner_eq, maxCorner_eq]
    have e : ∀ k : ℝ, Real.sqrt k * 2 = Real.sqrt (k * 2 ^ 2) := fun k => by
      rw [Real.sqrt_mul' k (by positivity), Real.sqrt_sq (by norm_num)]
    rw [e]; congr 1; ring
  · simp only [Box.shortestSide, smin_eq, Set.mem_range, Box.side]
    rcases min_choice (b.extents 0) (min (b.extents 1) (b.extents 2)) with h | h <;> rw [h]
    · exact ⟨0, rfl⟩
    · rcases min_choice (b.extents 1) (b.extents 2) with h | h <;> rw [h]
      · exact ⟨1, rfl⟩
      · exact ⟨2, rfl⟩
  · rintro _ ⟨i, rfl⟩
    simp only [Box.shortestSide, smin_eq, Box.side]
    refine mul_le_mul_of_nonneg_right ?_ (by norm_num)
    fin_cases i <;> simp
  · simp only [Box.longestSide, smax_eq, Set.mem_range, Box.side]
    rcases max_choice (b.extents 0) (max (b.extents 1) (b.extents 2)) with h | h <;> rw [h]
    · exact ⟨0, rfl⟩
    · rcases max_choice (b.extents 1) (b.extents 2) with h | h <;> rw [h]
      · exact ⟨1, rfl⟩
      · exact ⟨2, rfl⟩
  · rintro _ ⟨i, rfl⟩
    simp only [Box.longestSide, smax_eq, Box.side]
    refine mul_le_mul_of_nonneg_right ?_ (by norm_num)
    fin_cases i <;> simp
  · simp only [Box.volume, Box.side]; ring
  · simp only [Box.degenerate, Bool.or_eq_true, decide_eq_true_eq, Box.side, Fin.exists_fin_succ]
    simp only [Fin.succ_zero_eq_one, Fin.succ_one_eq_two, IsEmpty.exists_iff, or_false, or_assoc]
    have : ∀ x : ℝ, x * 2 ≤ 0 ↔ x ≤ 0 := fun x => by constructor <;> intro h <;> linarith
    simp only [this]

/-- C98: `volume` of a box is its Lebesgue measure. -/
theorem C98_volume (b : Box) (hb : Valid b) : (MeasureTheory.volume (region b)).toReal = b.volume := by
  have hI : region b = Set.Icc b.minCorner b.maxCorner := by
    rw [← C98_from_min_max, (C98_corner b ⟨true, true, true⟩).2.2.2]
  have hle : b.minCorner ≤ b.maxCorner := by
    intro i; rw [minCorner_eq, maxCorner_eq]; linarith [hb i]
  rw [hI, Real.volume_Icc_pi_toReal hle, Fin.prod_univ_three]
  simp only [minCorner_eq, maxCorner_eq, Box.volume]; ring

/-- C98: a translated box is the box moved by the offset. -/
theorem C98_translate (b : Box) (offset : Vec) : region (b.translate offset) = (fun x => x + offset) '' region b := by
  ext x
  show x ∈ box _ _ ↔ ∃ y, y ∈ box _ _ ∧ _
  simp only [mem_box, Box.translate]
  constructor
  · intro h
    refine ⟨x - offset, fun i => ?_, by simp⟩
    have := h i
    simp only [Pi.sub_apply]
    constructor <;> linarith [this.1, this.2]
  · rintro ⟨y, h, rfl⟩ i
    have := h i
    simp only [Pi.add_apply]
    constructor <;> linarith [this.1, this.2]

/-- C98: a scaled box is the box stretched about its centre. -/
theorem C98_scale (b : Box) (hb : Valid b) (s : Vec) (hs : ∀ i, 0 ≤ s i) :
    region (b.scale s) = (fun x i => b.center i + s i * (x i - b.center i)) '' region b := by
  ext x
  show (∀ i, |x i - b.center i| ≤ b.extents i * s i) ↔ ∃ y : Point, (∀ i, |y i - b.center i| ≤ b.extents i) ∧ _
  constructor
  · intro h
    refine ⟨fun i => if s i = 0 then b.center i else b.center i + (x i - b.center i) / s i, fun i => ?_, ?_⟩
    · have h1 := h i
      have h2 := hb i
      have h3 := hs i
      simp only []
      split_ifs with h0
      · simpa using h2
      · have : 0 < s i := lt_of_le_of_ne h3 (Ne.symm h0)
        rw [add_sub_cancel_left, abs_div, abs_of_pos this, div_le_iff₀ this]
        exact h1
    · funext i
      have h1 := h i
      simp only []
      split_ifs with h0
      · rw [h0, mul_zero] at h1
        have : x i - b.center i = 0 := abs_eq_zero.mp (le_antisymm h1 (abs_nonneg _))
        rw [h0]; linarith
      · field_simp; ring
  · rintro ⟨y, h, rfl⟩ i
    simp only [add_sub_cancel_left, abs_mul, abs_of_nonneg (hs i)]
    rw [mul_comm]
    exact mul_le_mul_of_nonneg_right (h i) (hs i)

example : ∀ i, (0 : ℝ) ≤ (![2, 0, 1 / 2] : Vec) i := by intro i; fin_cases i <;> norm_num

/-- C98: under an affine transform, the box becomes the smallest box around its image. -/
theorem C98_transform (b : Box) (hb : Valid b) (tx : Mat ℝ 4 4) (h : ∀ j : Fin 4, tx 3 j = if j = 3 then 1 else 0) :
    TightAround (region (b.transform tx)) (transformPosition44 tx '' region b) := by
  have hle : ∀ i, b.center i - b.extents i ≤ b.center i + b.extents i := fun i => by linarith [hb i]
  have T : ∀ x (i : Fin 3), transformPosition44 tx x i =
      tx i.castSucc 0 * x 0 + tx i.castSucc 1 * x 1 + tx i.castSucc 2 * x 2 + tx i.castSucc 3 := by
    intro x i; rw [tp3 tx h]; fin_cases i <;> rfl
  let lo : Vec := fun i => b.center i - b.extents i
  let hi : Vec := fun i => b.center i + b.extents i
  let mn : Vec := fun i => Min.min (tx i.castSucc 0 * lo 0) (tx i.castSucc 0 * hi 0) +
    Min.min (tx i.castSucc 1 * lo 1) (tx i.castSucc 1 * hi 1) + Min.min (tx i.castSucc 2 * lo 2) (tx i.castSucc 2 * hi 2) +
    tx i.castSucc 3
  let mx : Vec := fun i => Max.max (tx i.castSucc 0 * lo 0) (tx i.castSucc 0 * hi 0) +
    Max.max (tx i.castSucc 1 * lo 1) (tx i.castSucc 1 * hi 1) + Max.max (tx i.castSucc 2 * lo 2) (tx i.castSucc 2 * hi 2) +
    tx i.castSucc 3
  have hbox : b.transform tx = fromMinMax mn mx := by
    simp only [Box.transform, fromMinMax, Model.Vector.min, Model.Vector.max, smin_eq, smax_eq, Box.mk.injEq, mn, mx, lo, hi]
    constructor <;> funext i <;> ring
  rw [hbox]
  have between : ∀ x ∈ region b, ∀ i, mn i ≤ transformPosition44 tx x i ∧ transformPosition44 tx x i ≤ mx i := by
    intro x hx i
    have hx := (mem_box _ _ _).mp hx
    have k := fun j : Fin 3 => mul_between (t := tx i.castSucc j.castSucc) (hx j).1 (hx j).2
    have k0 := k 0
    have k1 := k 1
    have k2 := k 2
    rw [T]
    exact ⟨add_le_add (add_le_add (add_le_add k0.1 k1.1) k2.1) le_rfl, add_le_add (add_le_add (add_le_add k0.2 k1.2) k2.2) le_rfl⟩
  refine tight (fun i a => ⟨?_, ?_⟩) fun i a => ⟨?_, ?_⟩
  · rintro ha _ ⟨x, hx, rfl⟩
    exact le_trans ha (between x hx i).1
  · intro ha
    choose x h1 h2 h3 using fun j : Fin 3 => pick_min (hle j) (tx i.castSucc j.castSucc)
    have := ha _ ⟨x, (mem_box _ _ _).mpr fun j => ⟨h1 j, h2 j⟩, rfl⟩
    rw [T] at this
    have h30 := h3 0
    have h31 := h3 1
    have h32 := h3 2
    simp only [Fin.castSucc_zero, Fin.castSucc_one, show (2 : Fin 3).castSucc = 2 from rfl] at h30 h31 h32
    rw [h30, h31, h32] at this
    exact this
  · rintro ha _ ⟨x, hx, rfl⟩
    exact le_trans (between x hx i).2 ha
  · intro ha
    choose x h1 h2 h3 using fun j : Fin 3 => pick_max (hle j) (tx i.castSucc j.castSucc)
    have := ha _ ⟨x, (mem_box _ _ _).mpr fun j => ⟨h1 j, h2 j⟩, rfl⟩
    rw [T] at this
    have h30 := h3 0
    have h31 := h3 1
    have h32 := h3 2
    simp only [Fin.castSucc_zero, Fin.castSucc_one, show (2 : Fin 3).castSucc = 2 from rfl] at h30 h31 h32
    rw [h30, h31, h32] at this
    exact this

example : ∀ j : Fin 4, (![![0, -2, 0, 5], ![1, 0, 3, 0], ![0, 0, 1, 1], ![0, 0, 0, 1]] : Mat ℝ 4 4) 3 j =
    if j = 3 then 1 else 0 := by
  intro j; fin_cases j <;> rfl

/-- C98: appending a point gives the smallest box around the old box and the point. -/
theorem C98_append (b : Box) (hb : Valid b) (p : Vec) : TightAround (region (b.append p)) (region b ∪ {p}) := by
  refine tight (fun i a => ?_) fun i a => ?_
  · simp only [Model.Vector.min, smin_eq, minCorner_eq, le_min_iff, Set.mem_union, Set.mem_singleton_iff, or_imp,
      forall_and, forall_eq]
    rw [box_lower hb]; rfl
  · simp only [Model.Vector.max, smax_eq, maxCorner_eq, max_le_iff, Set.mem_union, Set.mem_singleton_iff, or_imp,
      forall_and, forall_eq]
    rw [box_upper hb]; rfl

/-- C98: appending several points (or the corners of a segment or triangle) gives the smallest box around all of them. -/
theorem C98_append_many (b : Box) (hb : Valid b) (p1 p2 : Vec) (pts : List Vec) :
    TightAround (region (b.appendMany p1 p2 pts)) (region b ∪ {p | p ∈ p1 :: p2 :: pts}) := by
  refine tight (fun i a => ?_) fun i a => ?_
  · rw [minMany_le, List.forall_mem_cons, minCorner_eq, box_lower hb]
    simp only [Set.mem_union, or_imp, forall_and, Set.mem_ofPred_eq]; rfl
  · rw [le_maxMany, List.forall_mem_cons, maxCorner_eq, box_upper hb]
    simp only [Set.mem_union, or_imp, forall_and, Set.mem_ofPred_eq]; rfl

/-- C98: appending a box gives the smallest box around both. -/
theorem C98_append_box (b c : Box) (hb : Valid b) (hc : Valid c) :
    TightAround (region (b.appendBox c)) (region b ∪ region c) := by
  refine tight (fun i a => ?_) fun i a => ?_
  · rw [minMany_le]
    simp only [List.forall_mem_cons, List.not_mem_nil, false_imp_iff, implies_true, and_true, minCorner_eq, maxCorner_eq,
      Set.mem_union, or_imp, forall_and]
    have := hc i
    have e : (a ≤ c.center i - c.extents i ∧ a ≤ c.center i + c.extents i) ↔ a ≤ c.center i - c.extents i :=
      ⟨fun h => h.1, fun h => ⟨h, by linarith⟩⟩
    rw [e, box_lower hb, box_lower hc]; rfl
  · rw [le_maxMany]
    simp only [List.forall_mem_cons, List.not_mem_nil, false_imp_iff, implies_true, and_true, minCorner_eq, maxCorner_eq,
      Set.mem_union, or_imp, forall_and]
    have := hc i
    have e : (c.center i - c.extents i ≤ a ∧ c.center i + c.extents i ≤ a) ↔ c.center i + c.extents i ≤ a :=
      ⟨fun h => h.2, fun h => ⟨by linarith, h⟩⟩
    rw [e, box_upper hb, box_upper hc]; rfl

example : Valid sample ∧ ![7, 0, 1] ∉ region sample := by
  refine ⟨sample_valid, fun h => ?_⟩
  have := h 0
  norm_num [sample] at this

/-- C98: `closest_point` is the nearest point of the box. -/
theorem C98_closest (b : Box) (hb : Valid b) (p : Vec) : Nearest (region b) p (b.closestPoint p) := by
  rw [nearest_iff]
  have hle : ∀ i, b.center i - b.extents i ≤ b.center i + b.extents i := fun i => by linarith [hb i]
  refine ⟨(mem_box _ _ _).mpr fun i => sclamp_mem (hle i), fun x hx => ?_⟩
  have hx := (mem_box _ _ _).mp hx
  rw [sqDist_comm, sqDist_comm p x, sq3, sq3]
  have n := fun i => sclamp_near (x := p i) (hle i) (hx i).1 (hx i).2
  have := n 0
  have := n 1
  have := n 2
  simp only [Box.closestPoint, Model.Vector.clamp] at *
  linarith

/-- C98: `contains` is membership. -/
theorem C98_contains (b : Box) (p : Vec) : b.contains p = true ↔ p ∈ region b := contains_iff b p

/-- C98: a non-empty range of points is contained when all of them are; an empty range is not. -/
theorem C98_contains_all (b : Box) (pts : List Vec) :
    b.containsAll pts = true ↔ pts ≠ [] ∧ ∀ p ∈ pts, p ∈ region b := by
  unfold Box.containsAll
  split_ifs with h
  · simp [h]
  · simp only [List.all_eq_true, contains_iff]; exact ⟨fun h' => ⟨h, h'⟩, fun h' => h'.2⟩

/-- C98: a segment is contained when all its points are. -/
theorem C98_contains_segment (b : Box) (p q : Vec) : b.containsSegment p q = true ↔ segment ℝ p q ⊆ region b := by
  simp only [Box.containsSegment, Bool.and_eq_true, contains_iff]
  exact ⟨fun h => (box_convex _ _).segment_subset h.1 h.2, fun h => ⟨h (left_mem_segment _ _ _), h (right_mem_segment _ _ _)⟩⟩

/-- C98: a triangle is contained when all its points are. -/
theorem C98_contains_triangle (b : Box) (p0 p1 p2 : Vec) :
    b.containsTri p0 p1 p2 = true ↔ convexHull ℝ {p0, p1, p2} ⊆ region b := by
  simp only [Box.containsTri, Bool.and_eq_true, contains_iff]
  constructor
  · rintro ⟨⟨h0, h1⟩, h2⟩
    refine convexHull_min ?_ (box_convex _ _)
    rintro x (rfl | rfl | rfl) <;> assumption
  · intro h
    exact ⟨⟨h (subset_convexHull _ _ (by simp)), h (subset_convexHull _ _ (by simp))⟩, h (subset_convexHull _ _ (by simp))⟩

example : (![1, 2, 4] : Vec) ∈ region sample ∧ (![3, 2, 4] : Vec) ∉ region sample := by
  refine ⟨fun i => by fin_cases i <;> norm_num [sample], fun h => ?_⟩
  have := h 0
  norm_num [sample] at this

/-! ## C99: boxes against boxes, planes and spheres -/

/-- C99: two boxes intersect exactly when they share a point. -/
theorem C99_box (b c : Box) (hb : Valid b) (hc : Valid c) : b.intersectsBox c = true ↔ Meets (region b) (region c) := by
  have hm : b.intersectsBox c = true ↔ ∀ i, c.center i - c.extents i ≤ b.center i + b.extents i ∧
      b.center i - b.extents i ≤ c.center i + c.extents i := by
    simp only [Box.intersectsBox, intersectsMinMax, minCorner_eq, maxCorner_eq, Bool.and_eq_true, decide_eq_true_eq,
      ge_iff_le, Fin.forall_fin_succ, Fin.succ_zero_eq_one, Fin.succ_one_eq_two, IsEmpty.forall_iff, and_true, and_assoc]
  rw [hm]
  constructor
  · intro h
    refine ⟨fun i => max (b.center i - b.extents i) (c.center i - c.extents i), (mem_box _ _ _).mpr fun i => ?_,
      (mem_box _ _ _).mpr fun i => ?_⟩
    · exact ⟨le_max_left _ _, max_le (by linarith [hb i]) (h i).1⟩
    · exact ⟨le_max_right _ _, max_le (h i).2 (by linarith [hc i])⟩
  · rintro ⟨x, hx, hy⟩ i
    have h1 := (mem_box _ _ _).mp hx i
    have h2 := (mem_box _ _ _).mp hy i
    constructor <;> linarith [h1.1, h1.2, h2.1, h2.2]

theorem containsMinMax_iff (a b c d : Vec) : containsMinMax a b c d = true ↔ ∀ i, a i ≤ c i ∧ d i ≤ b i := by
  simp only [containsMinMax, Bool.and_eq_true, decide_eq_true_eq, ge_iff_le, Fin.forall_fin_succ, Fin.succ_zero_eq_one,
    Fin.succ_one_eq_two, IsEmpty.forall_iff, and_true, and_assoc]

/-- C99: a box contains another exactly when it contains all its points. -/
theorem C99_contains_box (b c : Box) (hc : Valid c) : b.containsBox c = true ↔ region c ⊆ region b := by
  rw [Box.containsBox, containsMinMax_iff]
  simp only [minCorner_eq, maxCorner_eq]
  constructor
  · intro h x hx
    refine (mem_box _ _ _).mpr fun i => ?_
    have := (mem_box _ _ _).mp hx i
    constructor <;> linarith [this.1, this.2, (h i).1, (h i).2]
  · intro h i
    have h1 := (mem_box _ _ _).mp (h (min_mem hc)) i
    have h2 := (mem_box _ _ _).mp (h (max_mem hc)) i
    exact ⟨h1.1, h2.2⟩

/-- C99: a box intersects a plane exactly when they share a point. -/
theorem C99_plane (b : Box) (hb : Valid b) (p : Plane) :
    b.intersectsPlane p = true ↔ Meets (region b) (planeSet p.normal p.d) := by
  have hv := box_values (c := b.center) hb p.normal (-p.d)
  have e : b.intersectsPlane p = true ↔ |-p.d - (p.normal 0 * b.center 0 + p.normal 1 * b.center 1 + p.normal 2 * b.center 2)| ≤
      b.extents 0 * |p.normal 0| + b.extents 1 * |p.normal 1| + b.extents 2 * |p.normal 2| := by
    simp only [Box.intersectsPlane, Plane.distance, sd3, dot3, decide_eq_true_eq]
    rw [← abs_neg]
    ring_nf
  rw [e, ← hv]
  constructor
  · rintro ⟨x, hx, h⟩; exact ⟨x, hx, (mem_plane _ _ _).mpr (by linarith)⟩
  · rintro ⟨x, hx, h⟩; exact ⟨x, hx, by have := (mem_plane _ _ _).mp h; linarith⟩

/-- C99: a box intersects a sphere exactly when they share a point. -/
theorem C99_sphere (b : Box) (hb : Valid b) (s : Sphere) (hs : 0 ≤ s.radius) :
    b.intersectsSphere s = true ↔ Meets (region b) (ball s.center s.radius) := by
  have key : ∀ x, x ∈ ball s.center s.radius ↔ sqDist x s.center ≤ s.radius ^ 2 := fun x => Real.sqrt_le_left hs
  obtain ⟨h1, h2⟩ := (nearest_iff _ _ _).mp (C98_closest b hb s.center)
  have e : b.intersectsSphere s = true ↔ sqDist s.center (b.closestPoint s.center) ≤ s.radius ^ 2 := by
    simp only [Box.intersectsSphere, intersectsRadsq, dsq, decide_eq_true_eq, ← sq]
    rw [sqDist_comm]; rfl
  rw [e]
  constructor
  · intro h
    exact ⟨_, h1, (key _).mpr (by rw [sqDist_comm]; exact h)⟩
  · rintro ⟨x, hx, hy⟩
    have := (key _).mp hy
    rw [sqDist_comm] at this
    exact le_trans (h2 x hx) this

/-- C99: a box contains a sphere exactly when it contains all its points. -/
theorem C99_contains_sphere (b : Box) (hb : Valid b) (s : Sphere) (hs : 0 ≤ s.radius) :
    b.containsSphere s = true ↔ ball s.center s.radius ⊆ region b := by
  have ht := C98_from_sphere s hs
  have hm : containsMinMax b.minCorner b.maxCorner (fun i => s.center i - s.radius) (fun i => s.center i + s.radius) = true ↔
      ball s.center s.radius ⊆ region b := by
    have := C99_contains_box b (fromSphere s) (fun _ => hs)
    rw [Box.containsBox, containsMinMax_iff] at this
    rw [containsMinMax_iff]
    simp only [minCorner_eq, maxCorner_eq, fromSphere] at this ⊢
    rw [this]
    constructor
    · intro h; exact ht.1.trans h
    · intro h
      have hI : region b = Set.Icc b.minCorner b.maxCorner := by
        rw [← C98_from_min_max, (C98_corner b ⟨true, true, true⟩).2.2.2]
      rw [hI] at h ⊢
      exact ht.2 _ _ h
  have hcen : ∀ x ∈ ball s.center s.radius, s.center ∈ ball s.center s.radius := by
    intro _ _
    show Real.sqrt (sqDist _ _) ≤ _
    rw [sq3]; simpa using hs
  have hmin : b.minCorner = fun i => b.center i - b.extents i := funext (minCorner_eq b)
  have hmax : b.maxCorner = fun i => b.center i + b.extents i := funext (maxCorner_eq b)
  have hi := C99_sphere b hb s hs
  rw [Box.intersectsSphere, ← hmin, ← hmax] at hi
  unfold Box.containsSphere
  have hc : s.center ∈ ball s.center s.radius := by
    show Real.sqrt (sqDist _ _) ≤ _
    rw [sq3]; simpa using hs
  split_ifs with h
  · simp only [Bool.false_eq_true, false_iff]
    intro hsub
    rw [hi.mpr ⟨s.center, hsub hc, hc⟩] at h
    exact absurd h (by decide)
  · exact hm

/-- C99: a sphere contains a box exactly when it contains all its points. -/
theorem C99_sphere_contains (b : Box) (hb : Valid b) (s : Sphere) (hs : 0 ≤ s.radius) :
    Sphere.containsBox s b = true ↔ region b ⊆ ball s.center s.radius := by
  have key : ∀ x, x ∈ ball s.center s.radius ↔ sqDist x s.center ≤ s.radius ^ 2 := fun x => Real.sqrt_le_left hs
  have hmin : b.minCorner = fun i => b.center i - b.extents i := funext (minCorner_eq b)
  have hmax : b.maxCorner = fun i => b.center i + b.extents i := funext (maxCorner_eq b)
  have hi := C99_sphere b hb s hs
  rw [Box.intersectsSphere, ← hmin, ← hmax] at hi
  have hf : furthest b.center b.minCorner b.maxCorner s.center ∈ region b := by
    refine (mem_box _ _ _).mpr fun i => ?_
    have := hb i
    fin_cases i <;> simp only [furthest, hmin, hmax] <;>
      simp only [Matrix.cons_val_zero, Matrix.cons_val_one, Matrix.cons_val, Fin.zero_eta, Fin.mk_one, Fin.reduceFinMk] at * <;>
      split_ifs <;> constructor <;> linarith
  have hfar : ∀ x ∈ region b, sqDist x s.center ≤ sqDist (furthest b.center b.minCorner b.maxCorner s.center) s.center := by
    intro x hx
    have hx := (mem_box _ _ _).mp hx
    have k : ∀ i, (x i - s.center i) ^ 2 ≤
        ((if s.center i ≥ b.center i then b.center i - b.extents i else b.center i + b.extents i) - s.center i) ^ 2 := by
      intro i
      have := hx i
      split_ifs with h
      · nlinarith [mul_nonneg (sub_nonneg.mpr (hx i).1) (by linarith [(hx i).2] : 0 ≤ 2 * s.center i - (b.center i - b.extents i) - x i)]
      · push Not at h
        nlinarith [mul_nonneg (sub_nonneg.mpr (hx i).2) (by linarith [(hx i).1] : 0 ≤ (b.center i + b.extents i) + x i - 2 * s.center i)]
    rw [sq3, sq3]
    have k0 := k 0
    have k1 := k 1
    have k2 := k 2
    simp only [furthest, hmin, hmax, Matrix.cons_val_zero, Matrix.cons_val_one, Matrix.cons_val] at k0 k1 k2 ⊢
    linarith
  unfold Sphere.containsBox
  simp only [dsq, ← sq]
  simp only [← sq] at hi
  split_ifs with h
  · simp only [Bool.false_eq_true, false_iff]
    intro hsub
    rw [hi.mpr ⟨_, hf, hsub hf⟩] at h
    exact absurd h (by decide)
  · rw [decide_eq_true_eq]
    constructor
    · intro h' x hx; exact (key x).mpr (le_trans (hfar x hx) h')
    · intro hsub; exact (key _).mp (hsub hf)

example : Valid sample ∧ (0 : ℝ) ≤ (⟨![0, 0, 0], 2⟩ : Sphere).radius := ⟨sample_valid, by norm_num⟩

/-! ## C100: boxes against segments -/

/-- C100: a box intersects a segment exactly when they share a point. -/
theorem C100_segment (b : Box) (hb : Valid b) (p q : Vec) :
    b.intersectsSegment p q = true ↔ Meets (region b) (segment ℝ p q) := by
  have hm : b.intersectsSegment p q = true ↔
      ∃ t : ℝ, -1 ≤ t ∧ t ≤ 1 ∧ ∀ i, |p i + (q i - p i) / 2 - b.center i + t * ((q i - p i) / 2)| ≤ b.extents i := by
    unfold Box.intersectsSegment
    generalize hmd : (fun i => (q i - p i) / 2 : Vec) = md
    have hmd' : ∀ i, (q i - p i) / 2 = md i := fun i => congrFun hmd i
    generalize hmp : (fun i => p i + md i - b.center i : Vec) = mp
    have hmp' : ∀ i, p i + md i - b.center i = mp i := fun i => congrFun hmp i
    simp only [hmd', hmp']
    constructor
    · intro h
      split_ifs at h with h1 h2
      push Not at h1 h2
      refine slabs_helly mp md b.extents hb (fun i => ?_) fun i j => ?_
      · fin_cases i
        · exact h1.1
        · exact h1.2.1
        · exact h1.2.2
      · obtain ⟨a, c, d⟩ := h2
        have sw : ∀ i j, |md i * mp j - md j * mp i| = |md j * mp i - md i * mp j| := fun i j => abs_sub_comm _ _
        fin_cases i <;> fin_cases j <;> simp only [Fin.zero_eta, Fin.mk_one, Fin.reduceFinMk, Fin.isValue]
        · rw [sub_self, abs_zero]; have := hb 0; positivity
        · exact d
        · rw [sw]; linarith
        · rw [sw]; linarith
        · rw [sub_self, abs_zero]; have := hb 1; positivity
        · exact a
        · exact c
        · rw [sw]; linarith
        · rw [sub_self, abs_zero]; have := hb 2; positivity
    · rintro ⟨t, ht1, ht2, ht⟩
      have hT : |t| ≤ 1 := abs_le.mpr ⟨ht1, ht2⟩
      have k1 : ∀ i, |mp i| ≤ b.extents i + |md i| := by
        intro i
        have e : mp i = (mp i + t * md i) - t * md i := by ring
        rw [e]
        refine le_trans (abs_sub _ _) ?_
        rw [abs_mul]
        have := ht i
        have := mul_le_mul_of_nonneg_right hT (abs_nonneg (md i))
        linarith
      have k2 : ∀ i j, |md i * mp j - md j * mp i| ≤ b.extents i * |md j| + b.extents j * |md i| := by
        intro i j
        have e : md i * mp j - md j * mp i = md i * (mp j + t * md j) - md j * (mp i + t * md i) := by ring
        rw [e]
        refine le_trans (abs_sub _ _) ?_
        rw [abs_mul, abs_mul]
        have := mul_le_mul_of_nonneg_left (ht i) (abs_nonneg (md j))
        have := mul_le_mul_of_nonneg_left (ht j) (abs_nonneg (md i))
        linarith
      rw [if_neg (by push Not; exact ⟨k1 0, k1 1, k1 2⟩), if_neg (by push Not; exact ⟨k2 1 2, k2 2 0, k2 0 1⟩)]
  rw [hm]
  constructor
  · rintro ⟨t, h1, h2, h⟩
    refine ⟨fun i => p i + (1 + t) / 2 * (q i - p i), fun i => ?_, (mem_segment _ _ _).mpr ⟨(1 + t) / 2, by linarith, by linarith, fun i => rfl⟩⟩
    have := h i
    convert this using 2
    ring
  · rintro ⟨x, hx, hs⟩
    obtain ⟨t, h1, h2, h⟩ := (mem_segment _ _ _).mp hs
    refine ⟨2 * t - 1, by linarith, by linarith, fun i => ?_⟩
    have := hx i
    rw [h i] at this
    convert this using 2
    ring

/-- The diagonal segment from the origin to (3, 3, 6) meets the sample box; the one to (0, 0, 6) with x = -1 does not. -/
example : sample.intersectsSegment ![0, 0, 0] ![3, 3, 6] = true ∧ sample.intersectsSegment ![-1, 0, 0] ![-1, 0, 6] = false := by
  constructor
  · rw [C100_segment _ sample_valid]
    refine ⟨![3 / 2, 3 / 2, 3], fun i => by fin_cases i <;> norm_num [sample], (mem_segment _ _ _).mpr ⟨1 / 2, by norm_num, by norm_num, ?_⟩⟩
    intro i; fin_cases i <;> norm_num
  · rw [← Bool.not_eq_true, C100_segment _ sample_valid]
    rintro ⟨x, hx, hs⟩
    obtain ⟨t, -, -, h⟩ := (mem_segment _ _ _).mp hs
    have h0 := h 0
    have h1 := (mem_box _ _ _).mp hx 0
    norm_num [sample] at h0 h1
    linarith [h1.1]

/-! ## C101: boxes against triangles -/

/-- C101: a box intersects a triangle whose corners are not collinear exactly when they share a point. -/
theorem C101_triangle_partial (b : Box) (hb : Valid b) (p0 p1 p2 : Vec) (hp : Proper p0 p1 p2) :
    b.intersectsTri p0 p1 p2 = true ↔ Meets (region b) (convexHull ℝ {p0, p1, p2}) := by
  have h := Verif.Proofs.BoxTri.intersectsTri_iff (b := b) hb (p := ![p0, p1, p2]) hp
  simp only [Matrix.cons_val_zero, Matrix.cons_val_one, Matrix.cons_val] at h
  rw [h]
  constructor
  · rintro ⟨u, v, w, hu, hv, hw, h1, h⟩
    refine ⟨fun i => u * p0 i + v * p1 i + w * p2 i, fun i => ?_, (mem_tri _ _ _ _).mpr ⟨u, v, w, hu, hv, hw, h1, fun i => rfl⟩⟩
    convert h i using 2
    linear_combination b.center i * h1
  · rintro ⟨x, hx, ht⟩
    obtain ⟨u, v, w, hu, hv, hw, h1, h⟩ := (mem_tri _ _ _ _).mp ht
    refine ⟨u, v, w, hu, hv, hw, h1, fun i => ?_⟩
    convert hx i using 2
    rw [h i]
    linear_combination -b.center i * h1

/-- A large triangle whose corners and edges are all outside the sample box still meets it. -/
example : Proper ![-20, 2, 0] ![20, 2, 0] ![0, 2, 50] ∧ sample.intersectsTri ![-20, 2, 0] ![20, 2, 0] ![0, 2, 50] = true := by
  have hp : Proper ![-20, 2, 0] ![20, 2, 0] ![0, 2, 50] := by
    rw [proper_iff]
    intro h
    have := congrFun h 1
    rw [(cross3 _ _).2.1] at this
    norm_num [show ∀ a b c : ℝ, (![a, b, c] : Vec) 2 = c from fun _ _ _ => rfl] at this
  refine ⟨hp, (C101_triangle_partial _ sample_valid _ _ _ hp).mpr
    ⟨![0, 2, 3], fun i => by fin_cases i <;> norm_num [sample], (mem_tri _ _ _ _).mpr ⟨47 / 100, 47 / 100, 3 / 50, by norm_num, by norm_num, by norm_num, by norm_num, ?_⟩⟩⟩
  intro i; fin_cases i <;> norm_num

/-- C101 (what remains): a triangle whose corners are collinear never intersects a box. -/
theorem C101_degenerate (b : Box) (p0 p1 p2 : Vec) (hp : ¬ Proper p0 p1 p2) : b.intersectsTri p0 p1 p2 = false := by
  rw [proper_iff, not_not] at hp
  unfold Box.intersectsTri intersectsTriMinMax
  have : triNormal p0 p1 p2 = none := by rw [triNormal, normalizeNaN, if_pos hp]
  rw [this]
  simp [akenineMoller2]

/-- C101 is violated for triangles whose corners are collinear: one with all its corners inside the box is not reported. -/
theorem C101_violated : ∃ (b : Box) (p0 p1 p2 : Vec), Valid b ∧ b.intersectsTri p0 p1 p2 = false ∧
    convexHull ℝ {p0, p1, p2} ⊆ region b := by
  have hd : ¬ Proper ![0, 2, 3] ![1, 2, 3] ![2, 2, 3] := by
    rw [proper_iff, not_not]
    funext i
    obtain ⟨h0, h1, h2⟩ := cross3 (fun i => (![1, 2, 3] : Vec) i - (![0, 2, 3] : Vec) i) (fun i => (![2, 2, 3] : Vec) i - (![0, 2, 3] : Vec) i)
    fin_cases i
    · exact h0.trans (by norm_num [show ∀ a b c : ℝ, (![a, b, c] : Vec) 2 = c from fun _ _ _ => rfl])
    · exact h1.trans (by norm_num [show ∀ a b c : ℝ, (![a, b, c] : Vec) 2 = c from fun _ _ _ => rfl])
    · exact h2.trans (by norm_num [show ∀ a b c : ℝ, (![a, b, c] : Vec) 2 = c from fun _ _ _ => rfl])
  refine ⟨sample, ![0, 2, 3], ![1, 2, 3], ![2, 2, 3], sample_valid, C101_degenerate _ _ _ _ hd, ?_⟩
  refine (C98_contains_triangle _ _ _ _).mp ?_
  simp only [Box.containsTri, Bool.and_eq_true, contains_iff]
  refine ⟨⟨?_, ?_⟩, ?_⟩ <;> intro i <;> fin_cases i <;> norm_num [sample]

end Verif.Props.Boxes
