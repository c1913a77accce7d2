import Verif.Model.Sphere
import Verif.Proofs.Sphere
import Verif.Props.Boxes
import Mathlib.MeasureTheory.Measure.Lebesgue.VolumeOfBalls

/-!
# C102-C103: bounding spheres

Exact arithmetic.  A `Sphere` with centre `c` and radius `r` stands for the set `ball c r`.
-/

namespace Verif.Props.Sphere

open Verif.Model.Matrix Verif.Model.Vector Verif.Model.Geometry Verif.Model.Boxes Verif.Model.Sphere
open Verif.Proofs.Vector Verif.Proofs.Transform Verif.Proofs.Geometry Verif.Proofs.Boxes Verif.Proofs.Sphere
open Verif.Spec.Geometry Verif.Props.Boxes

/-- A sphere away from the origin. -/
noncomputable def sampleS : Sphere := ⟨![1, 2, 3], 2⟩

theorem sampleS_valid : 0 ≤ sampleS.radius := by norm_num [sampleS]

/-! ## C102: measures, movement, nearest point, containment, spheres against spheres -/

/-- The measure of a ball of the product space. -/
theorem ball_volume (c : Point) (r : ℝ) (hr : 0 ≤ r) : (MeasureTheory.volume (ball c r)).toReal = 4 / 3 * Real.pi * r ^ 3 := by
  have hpre : ball c r = (WithLp.toLp 2 : Point → EuclideanSpace ℝ (Fin 3)) ⁻¹' Metric.closedBall (WithLp.toLp 2 c) r := by
    ext x
    rw [Set.mem_preimage, Metric.mem_closedBall, EuclideanSpace.dist_eq, Fin.sum_univ_three]
    show eDist x c ≤ r ↔ _
    rw [eDist, sq3]
    simp only [Real.dist_eq, sq_abs]
  rw [hpre, (PiLp.volume_preserving_toLp (Fin 3)).measure_preimage measurableSet_closedBall.nullMeasurableSet,
    EuclideanSpace.volume_closedBall_fin_three, ENNReal.toReal_mul, ENNReal.toReal_pow, ENNReal.toReal_ofReal hr,
    ENNReal.toReal_ofReal (by positivity)]
  ring

/-- C102: the diameter is the largest distance between two points of the sphere; `volume` is the Lebesgue measure. -/
theorem C102_measures (s : Sphere) (hs : 0 ≤ s.radius) :
    IsGreatest {d | ∃ x ∈ ball s.center s.radius, ∃ y ∈ ball s.center s.radius, d = eDist x y} (diameter s) ∧
      (MeasureTheory.volume (ball s.center s.radius)).toReal = volume s := by
  refine ⟨⟨⟨fun i => s.center i + if i = 0 then s.radius else 0, ?_, fun i => s.center i - if i = 0 then s.radius else 0, ?_, ?_⟩, ?_⟩, ?_⟩
  · rw [mem_ball hs, sq3]; simp
  · rw [mem_ball hs, sq3]; simp
  · rw [eDist, sq3]
    simp only [Fin.isValue, ↓reduceIte, one_ne_zero, Fin.reduceEq, diameter]
    rw [show (s.center 0 + s.radius - (s.center 0 - s.radius)) ^ 2 + (s.center 1 + 0 - (s.center 1 - 0)) ^ 2 +
      (s.center 2 + 0 - (s.center 2 - 0)) ^ 2 = (s.radius * 2) ^ 2 by ring, Real.sqrt_sq (by positivity)]
  · rintro d ⟨x, hx, y, hy, rfl⟩
    rw [mem_ball hs, sq3] at hx hy
    show Real.sqrt _ ≤ s.radius * 2
    rw [Real.sqrt_le_left (by positivity), sq3]
    have h0 := sq_nonneg (x 0 - s.center 0 + (y 0 - s.center 0))
    have h1 := sq_nonneg (x 1 - s.center 1 + (y 1 - s.center 1))
    have h2 := sq_nonneg (x 2 - s.center 2 + (y 2 - s.center 2))
    nlinarith
  · rw [ball_volume _ _ hs, volume]; ring

/-- C102: a translated sphere is the sphere moved by the offset. -/
theorem C102_translate (s : Sphere) (offset : Vec) :
    ball (translate s offset).center (translate s offset).radius = (fun x => x + offset) '' ball s.center s.radius := by
  ext x
  show eDist x _ ≤ _ ↔ ∃ y : Point, eDist y _ ≤ _ ∧ _
  constructor
  · intro h
    refine ⟨x - offset, ?_, by simp⟩
    have e : eDist (x - offset) s.center = eDist x (translate s offset).center := by
      rw [eDist, eDist, sq3, sq3]
      simp only [translate, Pi.sub_apply]
      congr 1; ring
    rw [e]; exact h
  · rintro ⟨y, h, rfl⟩
    have e : eDist (y + offset) (translate s offset).center = eDist y s.center := by
      rw [eDist, eDist, sq3, sq3]
      simp only [translate, Pi.add_apply]
      congr 1; ring
    rw [e]; exact h

/-- C102: a scaled sphere is the sphere stretched about its centre. -/
theorem C102_scale (s : Sphere) (hs : 0 ≤ s.radius) (k : ℝ) (hk : 0 ≤ k) :
    ball (scale s k).center (scale s k).radius = (fun x i => s.center i + k * (x i - s.center i)) '' ball s.center s.radius := by
  have hsk : 0 ≤ s.radius * k := mul_nonneg hs hk
  ext x
  rw [show (scale s k).center = s.center from rfl, show (scale s k).radius = s.radius * k from rfl, mem_ball hsk]
  constructor
  · intro h
    rcases eq_or_lt_of_le hk with h0 | h0
    · refine ⟨s.center, ?_, ?_⟩
      · rw [mem_ball hs, sq3]; simp only [sub_self]; nlinarith [sq_nonneg s.radius]
      · rw [← h0, sq3] at h
        funext i
        have h1 := sq_nonneg (x 0 - s.center 0)
        have h2 := sq_nonneg (x 1 - s.center 1)
        have h3 := sq_nonneg (x 2 - s.center 2)
        have : x i - s.center i = 0 := by
          fin_cases i <;> simp only [Fin.zero_eta, Fin.mk_one, Fin.reduceFinMk] <;>
            exact pow_eq_zero_iff (two_ne_zero) |>.mp (by linarith)
        simp only [sub_self, mul_zero, add_zero]; linarith
    · refine ⟨fun i => s.center i + (x i - s.center i) / k, ?_, ?_⟩
      · rw [mem_ball hs, sq3]
        rw [sq3] at h
        simp only [add_sub_cancel_left, div_pow]
        rw [← add_div, ← add_div, div_le_iff₀ (by positivity)]
        linarith
      · funext i; simp only [add_sub_cancel_left]; field_simp; ring
  · rintro ⟨y, h, rfl⟩
    rw [mem_ball hs, sq3] at h
    rw [sq3]
    simp only [add_sub_cancel_left]
    have := mul_le_mul_of_nonneg_left h (sq_nonneg k)
    linarith

/-- C102: `contains` is membership, of a point, of every point of a non-empty range, segment or triangle. -/
theorem C102_contains (s : Sphere) (hs : 0 ≤ s.radius) (p q r : Vec) (pts : List Vec) :
    (contains s p = true ↔ p ∈ ball s.center s.radius) ∧
    (containsAll s pts = true ↔ pts ≠ [] ∧ ∀ x ∈ pts, x ∈ ball s.center s.radius) ∧
    (containsSegment s p q = true ↔ segment ℝ p q ⊆ ball s.center s.radius) ∧
    (containsTri s p q r = true ↔ convexHull ℝ {p, q, r} ⊆ ball s.center s.radius) := by
  refine ⟨contains_iff s hs p, ?_, ?_, ?_⟩
  · unfold containsAll
    split_ifs with h
    · simp [h]
    · simp only [List.all_eq_true, contains_iff s hs]; exact ⟨fun h' => ⟨h, h'⟩, fun h' => h'.2⟩
  · simp only [containsSegment, Bool.and_eq_true, contains_iff s hs]
    exact ⟨fun h => (ball_convex _ hs).segment_subset h.1 h.2, fun h => ⟨h (left_mem_segment _ _ _), h (right_mem_segment _ _ _)⟩⟩
  · simp only [containsTri, Bool.and_eq_true, contains_iff s hs]
    constructor
    · rintro ⟨⟨h0, h1⟩, h2⟩
      refine convexHull_min ?_ (ball_convex _ hs)
      rintro x (rfl | rfl | rfl) <;> assumption
    · intro h
      exact ⟨⟨h (subset_convexHull _ _ (by simp)), h (subset_convexHull _ _ (by simp))⟩, h (subset_convexHull _ _ (by simp))⟩

example : (![1, 2, 5] : Vec) ∈ ball sampleS.center sampleS.radius ∧ (![2, 2, 5] : Vec) ∉ ball sampleS.center sampleS.radius := by
  rw [mem_ball sampleS_valid, mem_ball sampleS_valid, sq3, sq3]
  norm_num [sampleS, show ∀ a b c : ℝ, (![a, b, c] : Vec) 2 = c from fun _ _ _ => rfl]

/-- C102 (partial): for a point in the sphere, `closest_point` is the nearest point; for a point outside, it is the nearest
point minus the centre.  Missing: for a point outside a sphere that is not at the origin the answer is wrong
(`C102_closest_violated`). -/
theorem C102_closest_partial (s : Sphere) (hs : 0 ≤ s.radius) (p : Vec) :
    (p ∈ ball s.center s.radius → Nearest (ball s.center s.radius) p (closestPoint s p)) ∧
    (p ∉ ball s.center s.radius → Nearest (ball s.center s.radius) p (s.center + closestPoint s p)) ∧
    (s.center = 0 → Nearest (ball s.center s.radius) p (closestPoint s p)) := by
  have inside : p ∈ ball s.center s.radius → closestPoint s p = p := by
    intro h
    rw [mem_ball hs, sq3] at h
    unfold Model.Sphere.closestPoint
    simp only [ls3]
    rw [if_pos (by linarith)]
  have hin : p ∈ ball s.center s.radius → Nearest (ball s.center s.radius) p (closestPoint s p) := by
    intro h
    rw [inside h]
    refine ⟨h, fun x _ => ?_⟩
    rw [dist_le, sq3]
    simp only [sub_self]
    have := sqDist_nonneg p x
    linarith
  have hout : p ∉ ball s.center s.radius → Nearest (ball s.center s.radius) p (s.center + closestPoint s p) := by
    intro h
    rw [mem_ball hs, sq3, not_le] at h
    have e : closestPoint s p = fun i => (p i - s.center i) * (1 / Real.sqrt (sqDist p s.center)) * s.radius := by
      unfold Model.Sphere.closestPoint normalizeLensq
      simp only [ls3]
      rw [if_neg (by linarith), sq3]
    have hL : Real.sqrt (sqDist p s.center) ^ 2 = sqDist p s.center := Real.sq_sqrt (sqDist_nonneg _ _)
    have hrL : s.radius < Real.sqrt (sqDist p s.center) := by
      apply Real.lt_sqrt_of_sq_lt; rw [sq3]; exact h
    generalize Real.sqrt (sqDist p s.center) = L at *
    rw [sq3 p s.center] at hL
    have hLp : 0 < L := lt_of_le_of_lt hs hrL
    have hk : 1 / L * L = 1 := by field_simp
    generalize 1 / L = k at *
    have hk2 : k ^ 2 * L ^ 2 = 1 := by rw [← mul_pow, hk]; norm_num
    rw [nearest_iff, e]
    refine ⟨?_, fun x hx => ?_⟩
    · rw [mem_ball hs, sq3]
      simp only [Pi.add_apply, add_sub_cancel_left]
      have : ((p 0 - s.center 0) * k * s.radius) ^ 2 + ((p 1 - s.center 1) * k * s.radius) ^ 2 + ((p 2 - s.center 2) * k * s.radius) ^ 2 =
          s.radius ^ 2 := by linear_combination (-(k ^ 2 * s.radius ^ 2)) * hL + s.radius ^ 2 * hk2
      exact this.le
    · rw [mem_ball hs, sq3] at hx
      have hc := cs (fun i => p i - s.center i) (fun i => x i - s.center i)
      simp only [dp3] at hc
      have e1 : sqDist p (s.center + fun i => (p i - s.center i) * k * s.radius) = (L - s.radius) ^ 2 := by
        rw [sq3]
        simp only [Pi.add_apply]
        linear_combination (-((1 - k * s.radius) ^ 2)) * hL - 2 * L * s.radius * hk + s.radius ^ 2 * hk2
      have e2 : sqDist p x = L ^ 2 - 2 * ((p 0 - s.center 0) * (x 0 - s.center 0) + (p 1 - s.center 1) * (x 1 - s.center 1) +
          (p 2 - s.center 2) * (x 2 - s.center 2)) + ((x 0 - s.center 0) ^ 2 + (x 1 - s.center 1) ^ 2 + (x 2 - s.center 2) ^ 2) := by
        rw [sq3]; linear_combination - hL
      rw [e1, e2]
      have hc' : ((p 0 - s.center 0) * (x 0 - s.center 0) + (p 1 - s.center 1) * (x 1 - s.center 1) +
          (p 2 - s.center 2) * (x 2 - s.center 2)) ^ 2 ≤ L ^ 2 * ((x 0 - s.center 0) ^ 2 + (x 1 - s.center 1) ^ 2 + (x 2 - s.center 2) ^ 2) := by
        rw [hL]; linarith
      have hN0 : 0 ≤ (x 0 - s.center 0) ^ 2 + (x 1 - s.center 1) ^ 2 + (x 2 - s.center 2) ^ 2 := by positivity
      generalize (p 0 - s.center 0) * (x 0 - s.center 0) + (p 1 - s.center 1) * (x 1 - s.center 1) +
          (p 2 - s.center 2) * (x 2 - s.center 2) = D at *
      generalize (x 0 - s.center 0) ^ 2 + (x 1 - s.center 1) ^ 2 + (x 2 - s.center 2) ^ 2 = N at *
      obtain ⟨n, hn, rfl⟩ : ∃ n, 0 ≤ n ∧ N = n ^ 2 := ⟨Real.sqrt N, Real.sqrt_nonneg _, (Real.sq_sqrt hN0).symm⟩
      have hnr : n ≤ s.radius := (sq_le_sq₀ hn hs).mp hx
      have hD : D ≤ L * n := le_of_abs_le (abs_le_of_sq_le_sq (by rw [mul_pow]; exact hc') (by positivity))
      nlinarith
  refine ⟨hin, hout, fun hc => ?_⟩
  by_cases h : p ∈ ball s.center s.radius
  · exact hin h
  · have := hout h
    rw [hc, zero_add] at this
    rw [hc]; exact this

/-- C102 is violated: outside a sphere that is not at the origin, `closest_point` need not even be a point of the sphere. -/
theorem C102_closest_violated : ∃ (s : Sphere) (p : Vec), 0 < s.radius ∧ closestPoint s p ∉ ball s.center s.radius := by
  refine ⟨⟨![10, 0, 0], 1⟩, ![12, 0, 0], by norm_num, fun h => ?_⟩
  have e : closestPoint ⟨![10, 0, 0], 1⟩ ![12, 0, 0] 0 = 1 := by
    unfold Model.Sphere.closestPoint normalizeLensq
    simp only [ls3]
    norm_num [show ∀ a b c : ℝ, (![a, b, c] : Vec) 2 = c from fun _ _ _ => rfl]
    rw [show (4 : ℝ) = 2 ^ 2 by norm_num, Real.sqrt_sq (by norm_num)]; norm_num
  rw [mem_ball (by norm_num), sq3, e] at h
  generalize closestPoint ⟨![10, 0, 0], 1⟩ ![12, 0, 0] 1 = y at h
  generalize closestPoint ⟨![10, 0, 0], 1⟩ ![12, 0, 0] 2 = z at h
  norm_num [show ∀ a b c : ℝ, (![a, b, c] : Vec) 2 = c from fun _ _ _ => rfl] at h
  nlinarith [sq_nonneg y, sq_nonneg z]

/-- C102 (partial): a sphere that contains all points of another is reported to.  Missing: the converse, which is false
(`C102_contains_sphere_violated`). -/
theorem C102_contains_sphere_partial (a b : Sphere) (ha : 0 ≤ a.radius) (hb : 0 ≤ b.radius)
    (h : ball b.center b.radius ⊆ ball a.center a.radius) : containsSphere a b = true := by
  have hd := ball_subset hb ha h
  have hn : 0 ≤ eDist b.center a.center := Real.sqrt_nonneg _
  have hsq := sq_eDist b.center a.center
  rw [sqDist_comm] at hsq
  unfold containsSphere
  simp only [dsq, ← hsq]
  generalize eDist b.center a.center = d at *
  have h1 : (d + b.radius) ^ 2 ≤ a.radius ^ 2 := pow_le_pow_left₀ (by positivity) hd 2
  have h2 : 0 ≤ d * b.radius := by positivity
  have h3 := sq_nonneg b.radius
  rw [if_neg (by nlinarith), decide_eq_true_eq]
  nlinarith

/-- C102 (partial): concentric spheres are compared exactly. -/
theorem C102_contains_concentric_partial (a b : Sphere) (ha : 0 ≤ a.radius) (hb : 0 ≤ b.radius) (hc : a.center = b.center) :
    containsSphere a b = true ↔ ball b.center b.radius ⊆ ball a.center a.radius := by
  refine ⟨fun h x hx => ?_, C102_contains_sphere_partial a b ha hb⟩
  have hz : sqDist b.center b.center = 0 := by rw [sq3]; ring
  unfold containsSphere at h
  simp only [dsq, hc, hz] at h
  split_ifs at h
  rw [decide_eq_true_eq] at h
  rw [hc, mem_ball ha]
  rw [mem_ball hb] at hx
  nlinarith

/-- C102 (partial): how far off a positive answer can be: the other sphere lies in the sphere grown by the factor `√2`. -/
theorem C102_contains_grown_partial (a b : Sphere) (ha : 0 ≤ a.radius) (hb : 0 ≤ b.radius) (h : containsSphere a b = true) :
    ball b.center b.radius ⊆ ball a.center (√2 * a.radius) := by
  intro x hx
  rw [mem_ball (by positivity), mul_pow, Real.sq_sqrt (by norm_num)]
  rw [mem_ball hb] at hx
  unfold containsSphere at h
  simp only [dsq] at h
  split_ifs at h
  rw [decide_eq_true_eq] at h
  rw [sq3] at h hx ⊢
  nlinarith [sq_nonneg (x 0 - b.center 0 + (a.center 0 - b.center 0)), sq_nonneg (x 1 - b.center 1 + (a.center 1 - b.center 1)),
    sq_nonneg (x 2 - b.center 2 + (a.center 2 - b.center 2))]

/-- C102 is violated: a sphere of radius 5 is said to contain one of radius 4 whose centre is at distance 3. -/
theorem C102_contains_sphere_violated : ∃ a b : Sphere, 0 < a.radius ∧ 0 < b.radius ∧ containsSphere a b = true ∧
    ¬ ball b.center b.radius ⊆ ball a.center a.radius := by
  refine ⟨⟨![0, 0, 0], 5⟩, ⟨![3, 0, 0], 4⟩, by norm_num, by norm_num, ?_, fun h => ?_⟩
  · unfold containsSphere
    simp only [dsq, sq3]
    norm_num [show ∀ a b c : ℝ, (![a, b, c] : Vec) 2 = c from fun _ _ _ => rfl]
  · have h4 : (0 : ℝ) ≤ 4 := by norm_num
    have h5 : (0 : ℝ) ≤ 5 := by norm_num
    have := h (show (![7, 0, 0] : Point) ∈ ball ![3, 0, 0] 4 by rw [mem_ball h4, sq3]; norm_num [show ∀ a b c : ℝ, (![a, b, c] : Vec) 2 = c from fun _ _ _ => rfl])
    rw [mem_ball h5, sq3] at this
    norm_num [show ∀ a b c : ℝ, (![a, b, c] : Vec) 2 = c from fun _ _ _ => rfl] at this

/-- C102 (partial): spheres that are reported to intersect share a point.  Missing: the converse, which is false
(`C102_intersects_violated`). -/
theorem C102_intersects_partial (a b : Sphere) (ha : 0 ≤ a.radius) (hb : 0 ≤ b.radius) (h : intersectsSphere a b = true) :
    Meets (ball a.center a.radius) (ball b.center b.radius) := by
  unfold intersectsSphere at h
  rw [decide_eq_true_eq, dsq, sq3] at h
  rcases eq_or_lt_of_le (add_nonneg ha hb) with h0 | h0
  · have ea : a.radius = 0 := by linarith
    have eb : b.radius = 0 := by linarith
    refine ⟨b.center, ?_, ?_⟩
    · rw [mem_ball ha, sq3]; rw [ea, eb] at h; rw [ea]; linarith
    · rw [mem_ball hb, sq3]; simp only [sub_self]; nlinarith [sq_nonneg b.radius]
  · generalize hk : 1 / (a.radius + b.radius) = k
    have hk1 : k * (a.radius + b.radius) = 1 := by rw [← hk]; field_simp
    have hk0 : 0 < k := by rw [← hk]; positivity
    generalize hN : (a.center 0 - b.center 0) ^ 2 + (a.center 1 - b.center 1) ^ 2 + (a.center 2 - b.center 2) ^ 2 = N at h
    have hN' : k ^ 2 * N ≤ 1 := by
      have : N ≤ (a.radius + b.radius) ^ 2 := by nlinarith [mul_nonneg ha hb]
      calc k ^ 2 * N ≤ k ^ 2 * (a.radius + b.radius) ^ 2 := mul_le_mul_of_nonneg_left this (sq_nonneg k)
        _ = 1 := by rw [← mul_pow, hk1]; norm_num
    refine ⟨fun i => a.center i + k * a.radius * (b.center i - a.center i), ?_, ?_⟩
    · rw [mem_ball ha, sq3]
      have := mul_le_mul_of_nonneg_left hN' (sq_nonneg a.radius)
      rw [← hN] at this
      nlinarith
    · rw [mem_ball hb, sq3]
      have e : ∀ i, a.center i + k * a.radius * (b.center i - a.center i) - b.center i = k * b.radius * (a.center i - b.center i) :=
        fun i => by linear_combination (b.center i - a.center i) * hk1
      rw [e, e, e]
      have := mul_le_mul_of_nonneg_left hN' (sq_nonneg b.radius)
      rw [← hN] at this
      nlinarith

/-- C102 is violated: two unit spheres whose centres are at distance 3/2 overlap but are not reported. -/
theorem C102_intersects_violated : ∃ a b : Sphere, 0 < a.radius ∧ 0 < b.radius ∧ intersectsSphere a b = false ∧
    ∃ x, eDist x a.center < a.radius ∧ eDist x b.center < b.radius := by
  refine ⟨⟨![0, 0, 0], 1⟩, ⟨![3 / 2, 0, 0], 1⟩, by norm_num, by norm_num, ?_, ![3 / 4, 0, 0], ?_, ?_⟩
  · unfold intersectsSphere
    simp only [dsq, sq3, decide_eq_false_iff_not]
    norm_num [show ∀ a b c : ℝ, (![a, b, c] : Vec) 2 = c from fun _ _ _ => rfl]
  · rw [eDist, sq3, Real.sqrt_lt' (by norm_num)]; norm_num [show ∀ a b c : ℝ, (![a, b, c] : Vec) 2 = c from fun _ _ _ => rfl]
  · rw [eDist, sq3, Real.sqrt_lt' (by norm_num)]; norm_num [show ∀ a b c : ℝ, (![a, b, c] : Vec) 2 = c from fun _ _ _ => rfl]

/-! ## C103: spheres against triangles -/

theorem tri_shift {p0 p1 p2 c x : Point} : x ∈ convexHull ℝ {p0, p1, p2} ↔
    (fun i => x i - c i : Point) ∈ convexHull ℝ {(fun i => p0 i - c i : Point), (fun i => p1 i - c i : Point), (fun i => p2 i - c i : Point)} := by
  rw [mem_tri, mem_tri]
  refine exists_congr fun u => exists_congr fun v => exists_congr fun w => ?_
  refine and_congr_right fun _ => and_congr_right fun _ => and_congr_right fun _ => and_congr_right fun h1 => forall_congr' fun i => ?_
  constructor
  · intro h; rw [h]; linear_combination (c i) * h1
  · intro h; linear_combination h - c i * h1

/-- C103: a triangle that shares a point with a sphere is reported to intersect it, whatever the corners. -/
theorem C103_no_misses (s : Sphere) (hs : 0 ≤ s.radius) (p0 p1 p2 : Vec)
    (h : Meets (ball s.center s.radius) (convexHull ℝ {p0, p1, p2})) : intersectsTri s p0 p1 p2 = true := by
  rw [intersectsTri_sep]
  intro hsep
  obtain ⟨x, hx, ht⟩ := h
  have := sep_far (sq_nonneg _) (tri_shift.mp ht) hsep
  rw [mem_ball hs, sq3] at hx
  rw [dp3] at this
  linarith

/-- C103: a sphere intersects a triangle whose corners are not collinear exactly when they share a point. -/
theorem C103_triangle_partial (s : Sphere) (hs : 0 ≤ s.radius) (p0 p1 p2 : Vec) (hp : Proper p0 p1 p2) :
    intersectsTri s p0 p1 p2 = true ↔ Meets (ball s.center s.radius) (convexHull ℝ {p0, p1, p2}) := by
  refine ⟨fun h => ?_, C103_no_misses s hs p0 p1 p2⟩
  rw [intersectsTri_sep] at h
  have hp' : Proper (fun i => p0 i - s.center i) (fun i => p1 i - s.center i) (fun i => p2 i - s.center i) := by
    rw [proper_iff] at *
    convert hp using 3 <;> ring
  obtain ⟨y, hy, hr⟩ := not_sep_meets hp' h
  refine ⟨fun i => y i + s.center i, ?_, (tri_shift (c := s.center)).mpr ?_⟩
  · rw [mem_ball hs, sq3]
    rw [dp3] at hr
    simp only [add_sub_cancel_right]
    linarith
  · simp only [add_sub_cancel_right]
    exact hy

/-- The plane of this triangle touches the sample sphere in its interior, at (1, 2, 5). -/
example : Proper ![0, 1, 5] ![3, 1, 5] ![0, 4, 5] ∧ intersectsTri sampleS ![0, 1, 5] ![3, 1, 5] ![0, 4, 5] = true := by
  have hp : Proper ![0, 1, 5] ![3, 1, 5] ![0, 4, 5] := by
    rw [proper_iff]
    intro h
    have := congrFun h 2
    rw [(cross3 _ _).2.2] at this
    norm_num at this
  refine ⟨hp, (C103_triangle_partial _ sampleS_valid _ _ _ hp).mpr ⟨![1, 2, 5], ?_, (mem_tri _ _ _ _).mpr
    ⟨1 / 3, 1 / 3, 1 / 3, by norm_num, by norm_num, by norm_num, by norm_num, ?_⟩⟩⟩
  · rw [mem_ball sampleS_valid, sq3]
    norm_num [sampleS, show ∀ a b c : ℝ, (![a, b, c] : Vec) 2 = c from fun _ _ _ => rfl]
  · intro i; fin_cases i <;> norm_num

/-- C103 is violated for triangles whose corners are collinear: one that is far from the sphere is reported. -/
theorem C103_violated : ∃ (s : Sphere) (p0 p1 p2 : Vec), 0 < s.radius ∧ intersectsTri s p0 p1 p2 = true ∧
    ¬ Meets (ball s.center s.radius) (convexHull ℝ {p0, p1, p2}) := by
  refine ⟨⟨![0, 0, 0], 1⟩, ![-1, 5, 0], ![1, 5, 0], ![2, 5, 0], by norm_num, ?_, ?_⟩
  · unfold intersectsTri
    simp only [dot_dp, dp3, (cross3 _ _).1, (cross3 _ _).2.1, (cross3 _ _).2.2]
    norm_num [show ∀ a b c : ℝ, (![a, b, c] : Vec) 2 = c from fun _ _ _ => rfl]
  · rintro ⟨x, hx, ht⟩
    obtain ⟨u, v, w, -, -, -, h1, h⟩ := (mem_tri _ _ _ _).mp ht
    have h1' := h 1
    rw [mem_ball (by norm_num), sq3] at hx
    norm_num at h1' hx
    have : x 1 = 5 := by linarith
    rw [this] at hx
    nlinarith [sq_nonneg (x 0), sq_nonneg (x 2)]

end Verif.Props.Sphere
