import Verif.Model.Ray
import Verif.Proofs.Ray
import Verif.Props.Boxes

/-!
# C107-C108: rays

Exact arithmetic.  `Cast o d X hit` is the specification of a ray cast.
-/

namespace Verif.Props.Ray

open Verif.Model.Matrix Verif.Model.Vector Verif.Model.Geometry Verif.Model.Boxes Verif.Model.Ray
open Verif.Proofs.Vector Verif.Proofs.Geometry Verif.Proofs.Boxes Verif.Proofs.Ray Verif.Spec.Geometry Verif.Spec.Rays

open scoped Matrix

/-! ## C107: positions, classification, planes and triangles -/

/-- C107: `at` is the point of the ray at the given distance; `bounce` starts there. -/
theorem C107_at (r : Ray) (t : ℝ) (dir : Vec) :
    r.at t = r.origin + t • r.direction ∧ (r.bounce t dir).origin = r.at t ∧ (r.bounce t dir).direction = dir := by
  refine ⟨?_, rfl, rfl⟩
  funext i
  simp [Ray.at, mul_comm]

/-- C107 (partial): a ray that does not lie in the plane is cast correctly.  Missing: a ray in the plane is not reported
(`C107_plane_violated`). -/
theorem C107_plane_partial (r : Ray) (p : Plane) (h : ¬ rayFrom r.origin r.direction ⊆ planeSet p.normal p.d) :
    Cast r.origin r.direction (planeSet p.normal p.d) (hitsPlane r p) := by
  have mem : ∀ t, t ∈ along r.origin r.direction (planeSet p.normal p.d) ↔
      p.signedDistance r.origin + t * dot r.direction p.normal = 0 := by
    intro t
    show p.normal ⬝ᵥ (r.origin + t • r.direction) + p.d = 0 ↔ _
    rw [Plane.signedDistance, dot_dp, dot_dp, dp3, dp3, dp3, at3, at3, at3]
    constructor <;> intro h <;> linarith
  have pn : -p.d - dot r.origin p.normal = -p.signedDistance r.origin := by
    rw [Plane.signedDistance, dot_dp, dot_dp, dp3, dp3]; ring
  unfold hitsPlane
  simp only [pn]
  have hz : ¬ (p.signedDistance r.origin = 0 ∧ dot r.direction p.normal = 0) := by
    rintro ⟨h1, h2⟩
    apply h
    rintro x ⟨t, -, rfl⟩
    exact (mem t).mpr (by rw [h1, h2]; ring)
  generalize p.signedDistance r.origin = sd at *
  generalize dot r.direction p.normal = nd at *
  split_ifs with h1 h2 h3
  · refine ⟨fun _ t ht hm => ?_, fun t ht => by cases ht⟩
    have := (mem t).mp hm
    rcases h1 with ⟨a, b⟩ | ⟨a, b⟩
    · have := mul_nonneg ht b; linarith
    · have := mul_nonneg ht (neg_nonneg.mpr b); linarith
  · refine ⟨fun _ t ht hm => ?_, fun t ht => by cases ht⟩
    have := (mem t).mp hm
    exact hz ⟨by rw [h2] at this; linarith, h2⟩
  · refine ⟨fun h => (by cases h), fun t ht => ?_⟩
    obtain rfl := Option.some.inj ht
    have uniq : ∀ t, t ∈ along r.origin r.direction (planeSet p.normal p.d) ↔ t = -sd / nd := by
      intro t
      rw [mem, eq_div_iff h2]
      constructor <;> intro h <;> linarith
    refine ⟨h3, (uniq _).mpr rfl, Or.inl ⟨(uniq _).mpr rfl, fun s hs => ?_⟩⟩
    rw [(uniq s).mp hs]
  · refine ⟨fun _ t ht hm => ?_, fun t ht => by cases ht⟩
    have := (mem t).mp hm
    apply h3
    rw [show -sd / nd = t by rw [div_eq_iff h2]; linarith]
    exact ht

/-- A ray that crosses the plane `z = 1`. -/
example : ¬ rayFrom ![0, 0, 0] ![1, 0, 2] ⊆ planeSet ![0, 0, 1] (-1) := by
  intro h
  have := h ⟨0, le_rfl, rfl⟩
  simp [planeSet] at this

/-- C107 is violated for a ray in the plane: all its points are in the plane, but no hit is reported. -/
theorem C107_plane_violated : ∃ (r : Ray) (p : Plane), rayFrom r.origin r.direction ⊆ planeSet p.normal p.d ∧ hitsPlane r p = none := by
  refine ⟨⟨![0, 0, 1], ![1, 0, 0]⟩, ⟨![0, 0, 1], -1⟩, ?_, ?_⟩
  · rintro x ⟨t, -, rfl⟩
    simp [planeSet]
  · have : dot ![1, 0, 0] (![0, 0, 1] : Vec) = 0 := by
      rw [dot_dp, dp3]; simp
    unfold hitsPlane
    simp only [this, if_true, ite_self]

/-- C107 (partial): a reported hit is a point of the triangle.  When the determinant the code computes (the volume spanned by
the direction and the edges) is at least epsilon, the triangle's point on the line is reported, whether in front of the origin
or behind it; the cast is right if the triangle is not behind.  Missing: a triangle behind the ray is reported with a
negative distance (`C107_triangle_behind_violated`), and small triangles are missed (`C107_triangle_small_violated`). -/
theorem C107_triangle_partial (epsilon : ℝ) (he : 0 < epsilon) (r : Ray) (p0 p1 p2 : Vec) :
    (∀ t, hitsTriangle epsilon r p0 p1 p2 = some t → t ∈ along r.origin r.direction (convexHull ℝ {p0, p1, p2})) ∧
    (epsilon ≤ |r.direction ⬝ᵥ crossProduct (p1 - p0) (p2 - p0)| →
      (∀ t, hitsTriangle epsilon r p0 p1 p2 = some t ↔ t ∈ along r.origin r.direction (convexHull ℝ {p0, p1, p2})) ∧
      ((∀ s ∈ along r.origin r.direction (convexHull ℝ {p0, p1, p2}), 0 ≤ s) →
        Cast r.origin r.direction (convexHull ℝ {p0, p1, p2}) (hitsTriangle epsilon r p0 p1 p2))) := by
  have hdet : |dot (fun i => p1 i - p0 i) (cross r.direction (fun i => p2 i - p0 i))| = |r.direction ⬝ᵥ crossProduct (p1 - p0) (p2 - p0)| := by
    rw [show (crossProduct (p1 - p0) (p2 - p0) : Point) = cross (fun i => p1 i - p0 i) (fun i => p2 i - p0 i) from (cross_eq _ _).symm,
      ← abs_neg]
    congr 1
    obtain ⟨a0, a1, a2⟩ := cross3 r.direction (fun i => p2 i - p0 i)
    obtain ⟨b0, b1, b2⟩ := cross3 (fun i => p1 i - p0 i) (fun i => p2 i - p0 i)
    rw [dot_dp, dp3, dp3, a0, a1, a2, b0, b1, b2]
    ring
  have mem : ∀ t, t ∈ along r.origin r.direction (convexHull ℝ {p0, p1, p2}) ↔ ∃ u v : ℝ, 0 ≤ u ∧ 0 ≤ v ∧ u + v ≤ 1 ∧
      ∀ i, r.origin i + t * r.direction i = p0 i + u * (p1 i - p0 i) + v * (p2 i - p0 i) := by
    intro t
    show r.origin + t • r.direction ∈ convexHull ℝ {p0, p1, p2} ↔ _
    rw [mem_tri]
    constructor
    · rintro ⟨a, b, c, ha, hb, hc, h1, h⟩
      refine ⟨b, c, hb, hc, by linarith, fun i => ?_⟩
      rw [← at3, h]
      linear_combination p0 i * h1
    · rintro ⟨u, v, hu, hv, huv, h⟩
      refine ⟨1 - u - v, u, v, by linarith, hu, hv, by ring, fun i => ?_⟩
      rw [at3, h]; ring
  have key : epsilon ≤ |r.direction ⬝ᵥ crossProduct (p1 - p0) (p2 - p0)| → ∀ t, hitsTriangle epsilon r p0 p1 p2 = some t ↔
      t ∈ along r.origin r.direction (convexHull ℝ {p0, p1, p2}) := by
    intro h t
    rw [← hdet] at h
    have hd : dot (fun i => p1 i - p0 i) (cross r.direction (fun i => p2 i - p0 i)) ≠ 0 := by
      intro h0
      rw [h0, abs_zero] at h
      linarith
    simp only [mem, cramer hd]
    unfold hitsTriangle
    simp only
    rw [if_neg (not_lt.mpr h)]
    generalize dot (fun i => r.origin i - p0 i) (cross r.direction fun i => p2 i - p0 i) *
      (1 / dot (fun i => p1 i - p0 i) (cross r.direction fun i => p2 i - p0 i)) = U
    generalize dot r.direction (cross (fun i => r.origin i - p0 i) fun i => p1 i - p0 i) *
      (1 / dot (fun i => p1 i - p0 i) (cross r.direction fun i => p2 i - p0 i)) = V
    generalize dot (fun i => p2 i - p0 i) (cross (fun i => r.origin i - p0 i) fun i => p1 i - p0 i) *
      (1 / dot (fun i => p1 i - p0 i) (cross r.direction fun i => p2 i - p0 i)) = T
    split_ifs with h1 h2
    · refine ⟨fun h => (by cases h), ?_⟩
      rintro ⟨u, v, hu, hv, huv, rfl, rfl, rfl⟩
      rcases h1 with h1 | h1 <;> linarith
    · refine ⟨fun h => (by cases h), ?_⟩
      rintro ⟨u, v, hu, hv, huv, rfl, rfl, rfl⟩
      rcases h2 with h2 | h2 <;> linarith
    · push Not at h1 h2
      constructor
      · intro h
        exact ⟨U, V, h1.1, h2.1, h2.2, rfl, rfl, (Option.some.inj h).symm⟩
      · rintro ⟨u, v, -, -, -, -, -, rfl⟩
        rfl
  refine ⟨fun t ht => ?_, fun h => ⟨key h, fun hs => ⟨fun hn t _ hm => ?_, fun t ht => ?_⟩⟩⟩
  · by_cases h : epsilon ≤ |r.direction ⬝ᵥ crossProduct (p1 - p0) (p2 - p0)|
    · exact (key h t).mp ht
    · rw [← hdet] at h
      unfold hitsTriangle at ht
      simp only at ht
      rw [if_pos (not_le.mp h)] at ht
      cases ht
  · have := (key h t).mpr hm
    rw [hn] at this
    cases this
  · have hm := (key h t).mp ht
    refine ⟨hs t hm, hm, Or.inl ⟨hm, fun s hs => ?_⟩⟩
    have := (key h s).mpr hs
    rw [ht] at this
    exact (Option.some.inj this).le

/-- A ray in front of a triangle satisfies the hypotheses, with epsilon 1/1000. -/
example : (1 / 1000 : ℝ) ≤ |(![0, 0, -1] : Point) ⬝ᵥ crossProduct (![2, 0, 0] - ![0, 0, 0] : Point) (![0, 2, 0] - ![0, 0, 0])| := by
  rw [← cross_eq, dp3]
  obtain ⟨b0, b1, b2⟩ := cross3 (![2, 0, 0] - ![0, 0, 0] : Vec) (![0, 2, 0] - ![0, 0, 0])
  rw [b0, b1, b2]
  norm_num [show ∀ a b c : ℝ, (![a, b, c] : Vec) 2 = c from fun _ _ _ => rfl]

/-- C107 is violated: a triangle behind the origin of the ray is reported, at a negative distance. -/
theorem C107_triangle_behind_violated : ∀ epsilon : ℝ, 0 < epsilon → epsilon ≤ 1 → ∃ (r : Ray) (p0 p1 p2 : Vec),
    hitsTriangle epsilon r p0 p1 p2 = some (-1) ∧ ¬ Meets (rayFrom r.origin r.direction) (convexHull ℝ {p0, p1, p2}) := by
  intro epsilon he h1
  refine ⟨⟨![1 / 4, 1 / 4, 1], ![0, 0, 1]⟩, ![0, 0, 0], ![1, 0, 0], ![0, 1, 0], ?_, ?_⟩
  · rw [((C107_triangle_partial epsilon he _ _ _ _).2 ?_).1]
    · show _ ∈ convexHull ℝ _
      rw [mem_tri]
      refine ⟨1 / 2, 1 / 4, 1 / 4, by norm_num, by norm_num, by norm_num, by norm_num, fun i => ?_⟩
      fin_cases i <;> norm_num [show ∀ a b c : ℝ, (![a, b, c] : Vec) 2 = c from fun _ _ _ => rfl]
    · rw [← cross_eq, dp3]
      obtain ⟨b0, b1, b2⟩ := cross3 (![1, 0, 0] - ![0, 0, 0] : Vec) (![0, 1, 0] - ![0, 0, 0])
      rw [b0, b1, b2]
      norm_num [show ∀ a b c : ℝ, (![a, b, c] : Vec) 2 = c from fun _ _ _ => rfl]
      exact h1
  · rintro ⟨x, ⟨t, ht, rfl⟩, hx⟩
    obtain ⟨a, b, c, -, -, -, -, h⟩ := (mem_tri _ _ _ _).mp hx
    have := h 2
    norm_num [show ∀ a b c : ℝ, (![a, b, c] : Vec) 2 = c from fun _ _ _ => rfl] at this
    linarith

/-- C107 is violated: whatever epsilon is, some triangle is hit in a corner by a ray at a right angle and not reported. -/
theorem C107_triangle_small_violated : ∀ epsilon : ℝ, 0 < epsilon → ∃ (r : Ray) (p0 p1 p2 : Vec), Proper p0 p1 p2 ∧
    hitsTriangle epsilon r p0 p1 p2 = none ∧ r.at 1 ∈ convexHull ℝ {p0, p1, p2} := by
  intro epsilon he
  refine ⟨⟨![0, 0, 1], ![0, 0, -1]⟩, ![0, 0, 0], ![epsilon / 2, 0, 0], ![0, 1, 0], ?_, ?_, ?_⟩
  · rw [proper_iff, ne_eq, vec_zero]
    intro h
    have := (cross3 _ _).2.2.symm.trans h.2.2
    norm_num at this
    linarith
  · unfold hitsTriangle
    simp only
    obtain ⟨a0, a1, a2⟩ := cross3 (![0, 0, -1] : Vec) (fun i => (![0, 1, 0] : Vec) i - (![0, 0, 0] : Vec) i)
    rw [if_pos]
    rw [dot_dp, dp3, a0, a1, a2]
    norm_num [show ∀ a b c : ℝ, (![a, b, c] : Vec) 2 = c from fun _ _ _ => rfl]
    rw [abs_of_pos (by linarith)]
    linarith
  · refine subset_convexHull ℝ _ ?_
    left
    funext i
    fin_cases i <;> norm_num [Ray.at, show ∀ a b c : ℝ, (![a, b, c] : Vec) 2 = c from fun _ _ _ => rfl]

/-- C107 (partial): a ray reported as infinite or NaN has such a scalar.  Missing: the converse (`C107_infinity_violated`). -/
theorem C107_infinity_partial (o d : Fin 3 → XR) (h : infinityOrNan o d = true) : ∃ i, (∀ x : ℝ, o i ≠ some (x : EReal)) ∨
    (∀ x : ℝ, d i ≠ some (x : EReal)) := by
  simp only [infinityOrNan, Bool.and_eq_true, List.any_eq_true] at h
  obtain ⟨⟨i, -, hi⟩, -⟩ := h
  refine ⟨i, Or.inl fun x hx => ?_⟩
  rw [hx] at hi
  simp [XR.infinityOrNan] at hi

example : infinityOrNan (fun _ => none) (fun _ => some ⊤) = true := by
  simp [infinityOrNan, XR.infinityOrNan, List.finRange]

/-- C107 is violated: a ray with a NaN direction, or with an infinite origin, is not reported as infinite or NaN. -/
theorem C107_infinity_violated : infinityOrNan (fun _ => some 0) (fun _ => none) = false ∧ infinityOrNan (fun _ => some ⊤) (fun _ => some 1) = false := by
  constructor
  · simp [infinityOrNan, XR.infinityOrNan]
  · simp [infinityOrNan, XR.infinityOrNan, show (1 : EReal) ≠ ⊤ from EReal.coe_ne_top 1, show (1 : EReal) ≠ ⊥ from EReal.coe_ne_bot 1]

/-! ## C108: spheres and boxes -/

theorem sq_le_sq₀' (t a f : ℝ) (hf : 0 ≤ f) : (t - a) ^ 2 ≤ f ^ 2 ↔ a - f ≤ t ∧ t ≤ a + f := by
  rw [sq_le_sq, abs_of_nonneg hf, abs_le]
  constructor <;> rintro ⟨h1, h2⟩ <;> constructor <;> linarith

/-- C108 (partial): with a unit direction, a reported hit is right.  A ray that comes within the sphere by a margin (epsilon,
in squared distance), from an origin that is not inside the sphere or with the centre not behind it, is reported.
Missing: a ray that starts inside and points away from the centre is not reported (`C108_sphere_inside_violated`), nor is a ray
that touches the sphere (`C108_sphere_touch_violated`). -/
theorem C108_sphere_partial (epsilon : ℝ) (he : 0 < epsilon) (r : Ray) (hu : UnitVec r.direction) (s : Sphere) (hr : 0 ≤ s.radius) :
    (∀ t, hitsSphere epsilon r s = some t → Cast r.origin r.direction (ball s.center s.radius) (some t)) ∧
    ((∃ t : ℝ, 0 ≤ t ∧ sqDist (r.origin + t • r.direction) s.center ≤ s.radius ^ 2 - epsilon) →
      (s.radius ≤ eDist r.origin s.center ∨ 0 ≤ (s.center - r.origin) ⬝ᵥ r.direction) → hitsSphere epsilon r s ≠ none) := by
  have hu' : r.direction 0 ^ 2 + r.direction 1 ^ 2 + r.direction 2 ^ 2 = 1 := by
    have : r.direction ⬝ᵥ r.direction = 1 := hu
    rw [dp3] at this; linarith
  set a := dot (fun i => s.center i - r.origin i) r.direction with ha
  set e2 := lengthSquared (fun i => s.center i - r.origin i) with he2
  have ha' : a = (s.center 0 - r.origin 0) * r.direction 0 + (s.center 1 - r.origin 1) * r.direction 1 + (s.center 2 - r.origin 2) * r.direction 2 := by
    rw [ha, dot_dp, dp3]
  have he2' : e2 = (s.center 0 - r.origin 0) ^ 2 + (s.center 1 - r.origin 1) ^ 2 + (s.center 2 - r.origin 2) ^ 2 := by
    rw [he2, ls3]
  have hq : ∀ t, sqDist (r.origin + t • r.direction) s.center = (t - a) ^ 2 + (e2 - a * a) := by
    intro t
    rw [sq3, at3, at3, at3, ha', he2']
    linear_combination t ^ 2 * hu'
  have hcs : a * a ≤ e2 := by
    have := hq a
    have h0 := sqDist_nonneg (r.origin + a • r.direction) s.center
    rw [this, sub_self] at h0
    linarith
  have mem : ∀ t, t ∈ along r.origin r.direction (ball s.center s.radius) ↔ (t - a) ^ 2 ≤ s.radius * s.radius - (e2 - a * a) := by
    intro t
    show r.origin + t • r.direction ∈ ball s.center s.radius ↔ _
    rw [Verif.Proofs.Sphere.mem_ball hr, hq]
    constructor <;> intro h <;> linarith
  constructor
  · intro t ht
    refine ⟨fun h => (by cases h), fun t' ht' => ?_⟩
    obtain rfl := Option.some.inj ht'
    unfold hitsSphere at ht
    simp only [← ha, ← he2] at ht
    rw [Real.mul_self_sqrt (by linarith : 0 ≤ e2 - a * a)] at ht
    split_ifs at ht with h1 h2 h3
    all_goals
      push Not at h1 h2
      have hf2 := Real.sq_sqrt (by linarith : 0 ≤ s.radius * s.radius - (e2 - a * a))
      have hf0 := Real.sqrt_nonneg (s.radius * s.radius - (e2 - a * a))
      rw [← hf2] at mem
      obtain rfl := Option.some.inj ht
    · have hlt : a < Real.sqrt (s.radius * s.radius - (e2 - a * a)) := by
        rw [Real.lt_sqrt h1]; linarith
      generalize Real.sqrt (s.radius * s.radius - (e2 - a * a)) = f at *
      have mem' : ∀ t, t ∈ along r.origin r.direction (ball s.center s.radius) ↔ a - f ≤ t ∧ t ≤ a + f := by
        intro t
        rw [mem, sq_le_sq₀' t a f hf0]
      refine ⟨by linarith, (mem' _).mpr ⟨by linarith, le_rfl⟩, Or.inr ⟨⟨a - f, (mem' _).mpr ⟨le_rfl, by linarith⟩, by linarith⟩, ?_, ?_⟩⟩
      · exact (mem' _).mpr ⟨by linarith, le_rfl⟩
      · exact fun s hs => ((mem' s).mp hs).2
    · have hle : Real.sqrt (s.radius * s.radius - (e2 - a * a)) ≤ a := by
        rw [Real.sqrt_le_left h1]; linarith
      generalize Real.sqrt (s.radius * s.radius - (e2 - a * a)) = f at *
      have mem' : ∀ t, t ∈ along r.origin r.direction (ball s.center s.radius) ↔ a - f ≤ t ∧ t ≤ a + f := by
        intro t
        rw [mem, sq_le_sq₀' t a f hf0]
      refine ⟨by linarith, (mem' _).mpr ⟨le_rfl, by linarith⟩, Or.inl ⟨(mem' _).mpr ⟨le_rfl, by linarith⟩, ?_⟩⟩
      exact fun s hs => ((mem' s).mp hs).1
  · rintro ⟨t, ht, h⟩ ho hn
    have h : (t - a) ^ 2 + (e2 - a * a) ≤ s.radius ^ 2 - epsilon := by rw [← hq]; exact h
    have h1 : 0 ≤ a := by
      rcases ho with ho | ho
      · rw [eDist, Real.le_sqrt hr] at ho
        have h0 := hq 0
        rw [show r.origin + (0 : ℝ) • r.direction = r.origin by simp] at h0
        by_contra hneg
        push Not at hneg
        have := mul_nonneg ht (neg_nonneg.mpr hneg.le)
        have h0' : sqDist r.origin s.center = e2 := by rw [h0]; ring
        rw [h0'] at ho
        nlinarith [sq_nonneg t]
        exact sqDist_nonneg _ _
      · rw [dp3] at ho
        rw [ha']
        exact ho
    unfold hitsSphere at hn
    simp only [← ha, ← he2] at hn
    rw [if_neg (not_lt.mpr h1), if_neg (by nlinarith [sq_nonneg (t - a)])] at hn
    split_ifs at hn

/-- A ray and a sphere that satisfy the hypotheses, with epsilon 1/1000. -/
example : UnitVec ![3 / 5, 0, 4 / 5] ∧ sqDist ((![0, 0, 0] : Point) + (5 : ℝ) • ![3 / 5, 0, 4 / 5]) ![3, 1, 4] ≤ (2 : ℝ) ^ 2 - 1 / 1000 ∧
    0 ≤ (![3, 1, 4] - ![0, 0, 0] : Point) ⬝ᵥ ![3 / 5, 0, 4 / 5] := by
  refine ⟨?_, ?_, ?_⟩
  · show _ ⬝ᵥ _ = (1 : ℝ)
    rw [dp3]; norm_num [show ∀ a b c : ℝ, (![a, b, c] : Vec) 2 = c from fun _ _ _ => rfl]
  · rw [sq3, at3, at3, at3]; norm_num [show ∀ a b c : ℝ, (![a, b, c] : Vec) 2 = c from fun _ _ _ => rfl]
  · rw [dp3]; norm_num [show ∀ a b c : ℝ, (![a, b, c] : Vec) 2 = c from fun _ _ _ => rfl]

/-- C108 is violated: a ray that starts inside the sphere and points away from its centre is not reported, although it leaves
the sphere in front of its origin. -/
theorem C108_sphere_inside_violated : ∀ epsilon : ℝ, ∃ (r : Ray) (s : Sphere), UnitVec r.direction ∧ 0 < s.radius ∧
    hitsSphere epsilon r s = none ∧ IsGreatest (along r.origin r.direction (ball s.center s.radius)) (1 / 2) := by
  intro epsilon
  refine ⟨⟨![1 / 2, 0, 0], ![1, 0, 0]⟩, ⟨![0, 0, 0], 1⟩, ?_, one_pos, ?_, ?_⟩
  · show _ ⬝ᵥ _ = (1 : ℝ)
    rw [dp3]; norm_num [show ∀ a b c : ℝ, (![a, b, c] : Vec) 2 = c from fun _ _ _ => rfl]
  · unfold hitsSphere
    simp only
    rw [if_pos]
    rw [dot_dp, dp3]
    norm_num [show ∀ a b c : ℝ, (![a, b, c] : Vec) 2 = c from fun _ _ _ => rfl]
  · have mem : ∀ t : ℝ, t ∈ along ![1 / 2, 0, 0] ![1, 0, 0] (ball ![0, 0, 0] 1) ↔ (1 / 2 + t) ^ 2 ≤ 1 := by
      intro t
      show _ ∈ ball _ _ ↔ _
      rw [Verif.Proofs.Sphere.mem_ball zero_le_one, sq3, at3, at3, at3]
      norm_num [show ∀ a b c : ℝ, (![a, b, c] : Vec) 2 = c from fun _ _ _ => rfl]
    constructor
    · rw [mem]; norm_num
    · intro t ht
      rw [mem] at ht
      nlinarith

/-- C108 is violated: a ray that touches the sphere is not reported. -/
theorem C108_sphere_touch_violated : ∀ epsilon : ℝ, 0 < epsilon → ∃ (r : Ray) (s : Sphere), UnitVec r.direction ∧ 0 < s.radius ∧
    hitsSphere epsilon r s = none ∧ r.at 2 ∈ ball s.center s.radius := by
  intro epsilon he
  refine ⟨⟨![-2, 0, 0], ![1, 0, 0]⟩, ⟨![0, 1, 0], 1⟩, ?_, one_pos, ?_, ?_⟩
  · show _ ⬝ᵥ _ = (1 : ℝ)
    rw [dp3]; norm_num [show ∀ a b c : ℝ, (![a, b, c] : Vec) 2 = c from fun _ _ _ => rfl]
  · unfold hitsSphere
    simp only
    rw [dot_dp, dp3, ls3, if_neg, if_pos]
    · norm_num [show ∀ a b c : ℝ, (![a, b, c] : Vec) 2 = c from fun _ _ _ => rfl]
      exact he
    · norm_num [show ∀ a b c : ℝ, (![a, b, c] : Vec) 2 = c from fun _ _ _ => rfl]
  · rw [Verif.Proofs.Sphere.mem_ball zero_le_one, sq3]
    norm_num [Ray.at, show ∀ a b c : ℝ, (![a, b, c] : Vec) 2 = c from fun _ _ _ => rfl]

/-- C108 (partial): the cast against a box is right, and the distance finite, for every direction that is not zero, unless the
ray runs inside the plane of a face.  `neg` are the signs of the zero components of the direction.  Missing: rays in the plane
of a face (`C108_box_violated`). -/
theorem C108_box_partial (neg : Fin 3 → Bool) (r : Ray) (b : Box) (hb : Verif.Props.Boxes.Valid b) (hd : r.direction ≠ 0)
    (hf : ∀ i, r.direction i = 0 → r.origin i ≠ b.center i - b.extents i ∧ r.origin i ≠ b.center i + b.extents i) :
    ∃ hit : Option ℝ, hitsBox neg r b = hit.map (fun t => some (t : EReal)) ∧
      Cast r.origin r.direction (box b.center b.extents) hit := by
  have key := fun i => slab (neg i) (lo := b.center i - b.extents i) (hi := b.center i + b.extents i) (o := r.origin i) (d := r.direction i)
    (by linarith [hb i]) (fun h => ⟨(hf i h).1.symm, (hf i h).2.symm⟩)
  choose A B hA hB hs hfin using key
  have hit : hitsBox neg r b = if max (max (A 0) (A 1)) (A 2) ≤ min (min (B 0) (B 1)) (B 2) ∧ 0 ≤ min (min (B 0) (B 1)) (B 2) then
      some (some (if max (max (A 0) (A 1)) (A 2) < 0 then min (min (B 0) (B 1)) (B 2) else max (max (A 0) (A 1)) (A 2))) else none := by
    unfold hitsBox hitsMinMax
    simp only [hA, hB, xmin_some, xmax_some, lt_some, Bool.or_eq_true, decide_eq_true_eq]
    generalize max (max (A 0) (A 1)) (A 2) = lo
    generalize min (min (B 0) (B 1)) (B 2) = hi
    by_cases h1 : hi < 0
    · rw [if_pos (Or.inl h1), if_neg (fun h => absurd h.2 (not_le.mpr h1))]
    · by_cases h2 : hi < lo
      · rw [if_pos (Or.inr h2), if_neg (fun h => absurd h.1 (not_le.mpr h2))]
      · rw [if_neg (show ¬ (hi < 0 ∨ hi < lo) by rintro (h | h); exacts [h1 h, h2 h]), if_pos (show lo ≤ hi ∧ 0 ≤ hi from ⟨not_lt.mp h2, not_lt.mp h1⟩)]
        split_ifs <;> rfl
  have mem : ∀ s : ℝ, s ∈ along r.origin r.direction (box b.center b.extents) ↔
      max (max (A 0) (A 1)) (A 2) ≤ (s : EReal) ∧ (s : EReal) ≤ min (min (B 0) (B 1)) (B 2) := by
    intro s
    have : s ∈ along r.origin r.direction (box b.center b.extents) ↔ ∀ i, A i ≤ (s : EReal) ∧ (s : EReal) ≤ B i := by
      show r.origin + s • r.direction ∈ box b.center b.extents ↔ _
      rw [mem_box]
      exact forall_congr' fun i => by rw [at3, ← hs i]
    rw [this, max_le_iff, max_le_iff, le_min_iff, le_min_iff, Fin.forall_fin_succ, Fin.forall_fin_succ, Fin.forall_fin_one]
    show (_ ∧ (A 1 ≤ _ ∧ _ ≤ B 1) ∧ (A 2 ≤ _ ∧ _ ≤ B 2)) ↔ _
    tauto
  obtain ⟨k, hk⟩ := Function.ne_iff.mp hd
  have hk := hfin k hk
  have hAk : A k ≤ max (max (A 0) (A 1)) (A 2) := by fin_cases k <;> simp
  have hBk : min (min (B 0) (B 1)) (B 2) ≤ B k := by fin_cases k <;> simp
  rw [hit]
  generalize max (max (A 0) (A 1)) (A 2) = lo at *
  generalize min (min (B 0) (B 1)) (B 2) = hi at *
  split_ifs with h1 h2
  · have hhi : hi ≠ ⊤ := fun h => hk.2 (top_le_iff.mp (h ▸ hBk))
    have hhi' : hi ≠ ⊥ := fun h => by rw [h] at h1; exact absurd h1.2 (by simp)
    lift hi to ℝ using ⟨hhi, hhi'⟩
    refine ⟨some hi, rfl, fun h => (by cases h), fun t ht => ?_⟩
    obtain rfl := Option.some.inj ht
    have hlo : lo ≠ ⊥ := fun h => hk.1 (le_bot_iff.mp (h ▸ hAk))
    have hlo' : lo ≠ ⊤ := fun h => by rw [h] at h2; exact absurd h2 (by simp)
    lift lo to ℝ using ⟨hlo', hlo⟩
    have h2 : lo < 0 := by exact_mod_cast h2
    have h11 : lo ≤ hi := by exact_mod_cast h1.1
    refine ⟨by exact_mod_cast h1.2, (mem hi).mpr ⟨h1.1, le_rfl⟩, Or.inr ⟨⟨lo, (mem lo).mpr ⟨le_rfl, h1.1⟩, h2⟩, ?_, ?_⟩⟩
    · exact (mem hi).mpr ⟨h1.1, le_rfl⟩
    · exact fun s hs => by exact_mod_cast ((mem s).mp hs).2
  · have hlo : lo ≠ ⊥ := fun h => hk.1 (le_bot_iff.mp (h ▸ hAk))
    have hlo' : lo ≠ ⊤ := fun h => hk.2 (top_le_iff.mp (h ▸ (h1.1.trans hBk)))
    lift lo to ℝ using ⟨hlo', hlo⟩
    refine ⟨some lo, rfl, fun h => (by cases h), fun t ht => ?_⟩
    obtain rfl := Option.some.inj ht
    refine ⟨by exact_mod_cast not_lt.mp h2, (mem lo).mpr ⟨le_rfl, h1.1⟩, Or.inl ⟨(mem lo).mpr ⟨le_rfl, h1.1⟩, ?_⟩⟩
    exact fun s hs => by exact_mod_cast ((mem s).mp hs).1
  · refine ⟨none, rfl, fun _ t ht hm => ?_, fun t h => by cases h⟩
    have hm := (mem t).mp hm
    exact h1 ⟨hm.1.trans hm.2, le_trans (by exact_mod_cast ht) hm.2⟩

/-- A ray with a zero component satisfies the hypotheses. -/
example : (![1, 0, 2] : Vec) ≠ 0 ∧ ∀ i, (![1, 0, 2] : Vec) i = 0 → (![-5, 1 / 2, 0] : Vec) i ≠ (![0, 0, 0] : Vec) i - (![1, 1, 1] : Vec) i ∧
    (![-5, 1 / 2, 0] : Vec) i ≠ (![0, 0, 0] : Vec) i + (![1, 1, 1] : Vec) i := by
  refine ⟨fun h => by simpa using congrFun h 0, fun i => ?_⟩
  fin_cases i <;> norm_num

/-- C108 is violated: a ray that runs along a face of a box is not reported, or is reported at an infinite distance, when the
zero components of its direction are positive zeros. -/
theorem C108_box_violated : (∃ (r : Ray) (b : Box), Verif.Props.Boxes.Valid b ∧ hitsBox (fun _ => false) r b = none ∧
      r.at 5 ∈ box b.center b.extents) ∧
    (∃ (r : Ray) (b : Box), Verif.Props.Boxes.Valid b ∧ hitsBox (fun _ => false) r b = some (some ⊤) ∧
      r.at 5 ∈ box b.center b.extents) := by
  have e2 : ∀ a b c : ℝ, (![a, b, c] : Vec) 2 = c := fun _ _ _ => rfl
  have d0 : xdiv false (0 - 1 - -5) 1 = some ((4 : ℝ) : EReal) := by rw [xdiv, if_pos one_ne_zero]; norm_num
  have d1 : xdiv false (0 + 1 - -5) 1 = some ((6 : ℝ) : EReal) := by rw [xdiv, if_pos one_ne_zero]; norm_num
  have d2 : xdiv false (0 - 1 - -1) 0 = none := by rw [xdiv]; norm_num
  have d3 : xdiv false (0 + 1 - -1) 0 = some ⊤ := by rw [xdiv]; norm_num
  have d4 : xdiv false (0 - 1 - 0) 0 = some ⊥ := by rw [xdiv]; norm_num
  have d5 : xdiv false (0 + 1 - 0) 0 = some ⊤ := by rw [xdiv]; norm_num
  have m1 : ∀ x, xmin none x = x := by intro x; cases x <;> rfl
  have m2 : ∀ x, xmax none x = none := by intro x; cases x <;> rfl
  have m3 : ∀ x, xmin x none = none := by intro x; cases x <;> rfl
  have v : Verif.Props.Boxes.Valid ⟨![0, 0, 0], ![1, 1, 1]⟩ := by intro i; fin_cases i <;> norm_num
  constructor
  · refine ⟨⟨![-1, 0, -5], ![0, 0, 1]⟩, ⟨![0, 0, 0], ![1, 1, 1]⟩, v, ?_, ?_⟩
    · unfold hitsBox hitsMinMax
      simp only [e2, Matrix.cons_val_zero, Matrix.cons_val_one, d0, d1, d2, d3, d4, d5]
      simp only [m1, m2, xmin_some, xmax_some, lt_some]
      rw [if_pos]
      rw [Bool.or_eq_true, decide_eq_true_eq, decide_eq_true_eq]
      right
      simp [EReal.coe_lt_top]
    · rw [mem_box]
      intro i
      fin_cases i <;> norm_num [Ray.at, e2]
  · refine ⟨⟨![-5, -1, 0], ![1, 0, 0]⟩, ⟨![0, 0, 0], ![1, 1, 1]⟩, v, ?_, ?_⟩
    · unfold hitsBox hitsMinMax
      simp only [e2, Matrix.cons_val_zero, Matrix.cons_val_one, d0, d1, d2, d3, d4, d5]
      simp only [m1, m2, m3, xmin_some, xmax_some, lt_some]
      simp
    · rw [mem_box]
      intro i
      fin_cases i <;> norm_num [Ray.at, e2]

end Verif.Props.Ray
