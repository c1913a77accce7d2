import Mathlib.Analysis.Convex.Combination
import Mathlib.Analysis.Convex.Join
import Mathlib.LinearAlgebra.AffineSpace.Midpoint
import Verif.Spec.Geometry
import Verif.Model.Geometry
import Verif.Proofs.Transform

/-!
# Lemmas about planes, segments and triangles
-/

namespace Verif.Proofs.Geometry

open Verif.Model.Matrix Verif.Model.Vector Verif.Model.Transform Verif.Model.Geometry
open Verif.Proofs.Vector Verif.Proofs.Transform Verif.Spec.Geometry

theorem n31 : (3 : ℕ) ≠ 1 := by decide

theorem dp3 (v w : Point) : v ⬝ᵥ w = v 0 * w 0 + v 1 * w 1 + v 2 * w 2 := by
  simp [dotProduct, Fin.sum_univ_three]

theorem dot_dp (v w : Vec) : dot v w = v ⬝ᵥ w := by rw [dp3, dot3]

theorem sq3 (p q : Point) : sqDist p q = (p 0 - q 0) ^ 2 + (p 1 - q 1) ^ 2 + (p 2 - q 2) ^ 2 := by
  simp [sqDist, Fin.sum_univ_three]

theorem ls3 (v : Vec) : lengthSquared v = v 0 ^ 2 + v 1 ^ 2 + v 2 ^ 2 := by
  rw [lengthSquared_eq, Fin.sum_univ_three]; ring

theorem dsq (p q : Vec) : distanceSquared p q = sqDist p q := by
  rw [sq3, distanceSquared, ls3]; ring

theorem sqDist_nonneg (p q : Point) : 0 ≤ sqDist p q := by rw [sq3]; positivity

theorem sqDist_comm (p q : Point) : sqDist p q = sqDist q p := by rw [sq3, sq3]; ring

theorem eDist_eq (p q : Vec) : Verif.Model.Vector.distance p q = eDist p q := by
  rw [Verif.Model.Vector.distance, eDist, ← dsq]

theorem dist_le {p q x y : Point} : eDist p q ≤ eDist x y ↔ sqDist p q ≤ sqDist x y :=
  Real.sqrt_le_sqrt_iff (sqDist_nonneg _ _)

theorem nearest_iff (S : Set Point) (p q : Point) :
    Nearest S p q ↔ q ∈ S ∧ ∀ x ∈ S, sqDist p q ≤ sqDist p x := by
  unfold Nearest
  simp only [dist_le]

theorem vec_zero (v : Vec) : v = 0 ↔ v 0 = 0 ∧ v 1 = 0 ∧ v 2 = 0 := by
  constructor
  · rintro rfl; exact ⟨rfl, rfl, rfl⟩
  · rintro ⟨h0, h1, h2⟩; funext i; fin_cases i <;> assumption

theorem vec_ext {v w : Vec} (h0 : v 0 = w 0) (h1 : v 1 = w 1) (h2 : v 2 = w 2) : v = w := by
  funext i; fin_cases i <;> assumption

theorem length_pos {v : Vec} (h : v ≠ 0) : 0 < length v := by
  rw [length_eq n31]
  apply Real.sqrt_pos.mpr
  rcases (lengthSquared_nonneg v).lt_or_eq with h' | h'
  · exact h'
  · exact absurd ((lengthSquared_eq_zero v).mp h'.symm) h

theorem length_sq (v : Vec) : length v ^ 2 = v 0 ^ 2 + v 1 ^ 2 + v 2 ^ 2 := by
  rw [length_eq n31, Real.sq_sqrt (lengthSquared_nonneg v), ls3]

theorem length_nonneg (v : Vec) : 0 ≤ length v := by rw [length_eq n31]; exact Real.sqrt_nonneg _

/-- The direction from `a` to `b` and its length. -/
theorem direction_spec {a b : Vec} (h : a ≠ b) :
    ∃ (dir : Vec) (len : ℝ), directionNaN a b = some (dir, len) ∧ 0 < len ∧ dir ⬝ᵥ dir = 1 ∧
      (∀ i, b i = a i + len * dir i) ∧ len = eDist a b := by
  have hne : (fun i => b i - a i : Vec) ≠ 0 := by
    intro h0; apply h; funext i
    have := congrFun h0 i
    simp at this; linarith
  refine ⟨normalizeV (fun i => b i - a i), length (fun i => b i - a i), ?_, length_pos hne, ?_, ?_, ?_⟩
  · rw [directionNaN]; simp only [if_neg hne, normalizeOut_eq n31]
  · have h1 := length_sq (fun i => b i - a i)
    have h2 := length_pos hne
    rw [normalize_eq n31, dp3]
    generalize length (fun i => b i - a i : Vec) = l at *
    field_simp
    linarith
  · intro i
    have h2 := length_pos hne
    rw [normalize_eq n31]
    generalize length (fun i => b i - a i : Vec) = l at *
    field_simp; ring
  · have : length (fun i => b i - a i : Vec) = Verif.Model.Vector.distance a b := by
      rw [length_eq n31, Verif.Model.Vector.distance, distanceSquared]
    rw [this, eDist_eq]

theorem direction_none (a : Vec) : directionNaN a a = none := by
  rw [directionNaN]; rw [if_pos]; funext i; simp

theorem normalizeNaN_spec {v : Vec} (h : v ≠ 0) :
    ∃ n : Vec, normalizeNaN v = some n ∧ n ⬝ᵥ n = 1 ∧ ∃ k : ℝ, 0 < k ∧ k * length v = 1 ∧ ∀ i, n i = k * v i := by
  have h1 := length_sq v
  have h2 := length_pos h
  refine ⟨normalizeV v, by rw [normalizeNaN, if_neg h], ?_, 1 / length v, by positivity, by field_simp, ?_⟩
  · rw [normalize_eq n31, dp3]
    generalize length v = l at *
    field_simp; linarith
  · intro i; rw [normalize_eq n31]; ring

theorem approxZero_iff (x e : ℝ) : approxZero x e = true ↔ |x| < e := by
  simp [approxZero, abs_neg]

/-! ### planes -/

theorem mem_plane (n : Point) (d : ℝ) (x : Point) : x ∈ planeSet n d ↔ n 0 * x 0 + n 1 * x 1 + n 2 * x 2 + d = 0 := by
  show n ⬝ᵥ x + d = 0 ↔ _
  rw [dp3]

theorem sd3 (p : Plane) (x : Vec) : p.signedDistance x = p.normal 0 * x 0 + p.normal 1 * x 1 + p.normal 2 * x 2 + p.d := by
  rw [Plane.signedDistance, dot3]

theorem unit3 {v : Point} (h : UnitVec v) : v 0 ^ 2 + v 1 ^ 2 + v 2 ^ 2 = 1 := by
  have : v ⬝ᵥ v = 1 := h
  rw [dp3] at this; linarith

/-- Cauchy-Schwarz for a unit vector. -/
theorem cs_unit {n : Point} (h : UnitVec n) (v : Point) :
    (n 0 * v 0 + n 1 * v 1 + n 2 * v 2) ^ 2 ≤ v 0 ^ 2 + v 1 ^ 2 + v 2 ^ 2 := by
  have hu := unit3 h
  nlinarith [sq_nonneg (n 0 * v 1 - n 1 * v 0), sq_nonneg (n 0 * v 2 - n 2 * v 0), sq_nonneg (n 1 * v 2 - n 2 * v 1)]

theorem project_mem (p : Plane) (h : UnitVec p.normal) (x : Vec) : p.project x ∈ planeSet p.normal p.d := by
  rw [mem_plane]
  have hu := unit3 h
  have hs := sd3 p x
  simp only [Plane.project]
  generalize p.signedDistance x = s at *
  linear_combination (-1 : ℝ) * hs - s * hu

theorem project_dist (p : Plane) (h : UnitVec p.normal) (x : Vec) : sqDist x (p.project x) = p.signedDistance x ^ 2 := by
  rw [sq3]
  have hu := unit3 h
  simp only [Plane.project]
  generalize p.signedDistance x = s at *
  linear_combination s ^ 2 * hu

theorem plane_far (p : Plane) (h : UnitVec p.normal) (x y : Vec) (hy : y ∈ planeSet p.normal p.d) :
    p.signedDistance x ^ 2 ≤ sqDist x y := by
  rw [mem_plane] at hy
  have := cs_unit h (fun i => x i - y i)
  rw [sq3, sd3]
  refine le_trans (le_of_eq ?_) this
  congr 1
  linear_combination hy

/-- Components of a transformed direction. -/
theorem wt3 (m : Mat ℝ 4 4) (d : Vec) : transformWithoutTranslating (by decide) (by decide) m d =
    ![m 0 0 * d 0 + m 0 1 * d 1 + m 0 2 * d 2, m 1 0 * d 0 + m 1 1 * d 1 + m 1 2 * d 2,
      m 2 0 * d 0 + m 2 1 * d 1 + m 2 2 * d 2] := by
  funext i; fin_cases i <;> rfl

/-- Components of a transformed position, when the last row is `0 0 0 1`. -/
theorem tp3 (m : Mat ℝ 4 4) (h : ∀ j : Fin 4, m 3 j = if j = 3 then 1 else 0) (d : Vec) : transformPosition44 m d =
    ![m 0 0 * d 0 + m 0 1 * d 1 + m 0 2 * d 2 + m 0 3, m 1 0 * d 0 + m 1 1 * d 1 + m 1 2 * d 2 + m 1 3,
      m 2 0 * d 0 + m 2 1 * d 1 + m 2 2 * d 2 + m 2 3] := by
  have hw : transformW m d = 1 := by simp [transformW, h]
  funext i; fin_cases i <;> simp [transformPosition44, hw]

theorem foldl_and {α : Type*} (f : α → Bool) (l : List α) (b : Bool) :
    l.foldl (fun acc x => acc && f x) b = (b && l.all f) := by
  induction l generalizing b with
  | nil => simp
  | cons a l ih => simp [ih, Bool.and_assoc]

/-! ### segments -/

theorem mem_segment (a b x : Point) : x ∈ segment ℝ a b ↔ ∃ t : ℝ, 0 ≤ t ∧ t ≤ 1 ∧ ∀ i, x i = a i + t * (b i - a i) := by
  rw [segment_eq_image]
  constructor
  · rintro ⟨t, ⟨h0, h1⟩, rfl⟩
    exact ⟨t, h0, h1, fun i => by simp; ring⟩
  · rintro ⟨t, h0, h1, h⟩
    exact ⟨t, ⟨h0, h1⟩, by funext i; rw [h i]; simp; ring⟩

theorem sclamp_mem {x lo hi : ℝ} (h : lo ≤ hi) : lo ≤ sclamp x lo hi ∧ sclamp x lo hi ≤ hi := by
  unfold sclamp
  split_ifs <;> constructor <;> linarith

/-- Clamping gives the nearest value of an interval. -/
theorem sclamp_near {x lo hi y : ℝ} (_ : lo ≤ hi) (h1 : lo ≤ y) (h2 : y ≤ hi) :
    (sclamp x lo hi - x) ^ 2 ≤ (y - x) ^ 2 := by
  unfold sclamp
  split_ifs <;> nlinarith

theorem closest_spec {a b : Vec} (h : a ≠ b) (x : Vec) : ∃ q, closestPoint a b x = some q ∧ Nearest (segment ℝ a b) x q := by
  obtain ⟨dir, len, hd, hl, hu, hb, -⟩ := direction_spec h
  refine ⟨_, by rw [closestPoint, hd], ?_⟩
  rw [nearest_iff]
  have hc := sclamp_mem (x := lineProjectDistance a dir x) hl.le
  refine ⟨(mem_segment _ _ _).mpr ⟨sclamp (lineProjectDistance a dir x) 0 len / len, div_nonneg hc.1 hl.le,
    by rw [div_le_one hl]; exact hc.2, ?_⟩, ?_⟩
  · intro i; rw [hb i]; field_simp; ring
  · intro y hy
    obtain ⟨t, h0, h1, hy⟩ := (mem_segment _ _ _).mp hy
    have hn := sclamp_near (x := lineProjectDistance a dir x) (y := t * len) hl.le (by positivity) (by nlinarith)
    have hp : lineProjectDistance a dir x = (x 0 - a 0) * dir 0 + (x 1 - a 1) * dir 1 + (x 2 - a 2) * dir 2 := by
      rw [lineProjectDistance, dot3]
    rw [dp3] at hu
    rw [sq3, sq3, hy 0, hy 1, hy 2, hb 0, hb 1, hb 2]
    generalize hg : sclamp (lineProjectDistance a dir x) 0 len = s at *
    generalize hq : lineProjectDistance a dir x = pr at *
    clear hg hq hy hb hd
    have e : ∀ r : ℝ, (x 0 - (a 0 + dir 0 * r)) ^ 2 + (x 1 - (a 1 + dir 1 * r)) ^ 2 + (x 2 - (a 2 + dir 2 * r)) ^ 2
        = (x 0 - a 0) ^ 2 + (x 1 - a 1) ^ 2 + (x 2 - a 2) ^ 2 - pr ^ 2 + (r - pr) ^ 2 := by
      intro r; linear_combination r ^ 2 * hu + 2 * r * hp
    have e1 := e s
    have e2 := e (t * len)
    have e3 : (x 0 - (a 0 + t * (a 0 + len * dir 0 - a 0))) ^ 2 + (x 1 - (a 1 + t * (a 1 + len * dir 1 - a 1))) ^ 2
        + (x 2 - (a 2 + t * (a 2 + len * dir 2 - a 2))) ^ 2
        = (x 0 - (a 0 + dir 0 * (t * len))) ^ 2 + (x 1 - (a 1 + dir 1 * (t * len))) ^ 2
        + (x 2 - (a 2 + dir 2 * (t * len))) ^ 2 := by ring
    linarith

theorem nearest_lt {S : Set Point} {x q : Point} (h : Nearest S x q) (e : ℝ) :
    sqDist x q < e ↔ ∃ y ∈ S, sqDist x y < e := by
  rw [nearest_iff] at h
  exact ⟨fun h' => ⟨q, h.1, h'⟩, fun ⟨y, hy, hl⟩ => lt_of_le_of_lt (h.2 y hy) hl⟩

theorem line_nearest (o dir x : Vec) (hu : UnitVec dir) : Nearest (lineThrough o dir) x (lineProject o dir x) := by
  rw [nearest_iff]
  refine ⟨⟨lineProjectDistance o dir x, by funext i; simp [lineProject]; ring⟩, ?_⟩
  rintro y ⟨t, rfl⟩
  have hu' := unit3 hu
  have hp : lineProjectDistance o dir x = (x 0 - o 0) * dir 0 + (x 1 - o 1) * dir 1 + (x 2 - o 2) * dir 2 := by
    rw [lineProjectDistance, dot3]
  rw [sq3, sq3]
  simp only [lineProject, Pi.add_apply, Pi.smul_apply, smul_eq_mul]
  generalize lineProjectDistance o dir x = pr at *
  have : (x 0 - (o 0 + t * dir 0)) ^ 2 + (x 1 - (o 1 + t * dir 1)) ^ 2 + (x 2 - (o 2 + t * dir 2)) ^ 2
      - ((x 0 - (o 0 + dir 0 * pr)) ^ 2 + (x 1 - (o 1 + dir 1 * pr)) ^ 2 + (x 2 - (o 2 + dir 2 * pr)) ^ 2)
      = (t - pr) ^ 2 := by
    linear_combination (t ^ 2 - pr ^ 2) * hu' + 2 * (t - pr) * hp
  nlinarith [sq_nonneg (t - pr)]

/-- The line through two points does not depend on the length of the direction vector. -/
theorem line_scale (o v w : Point) (k : ℝ) (hk : k ≠ 0) (h : ∀ i, w i = k * v i) : lineThrough o w = lineThrough o v := by
  ext x
  constructor
  · rintro ⟨t, rfl⟩
    exact ⟨t * k, by funext i; simp [h i]; ring⟩
  · rintro ⟨t, rfl⟩
    exact ⟨t / k, by funext i; simp [h i]; field_simp⟩

theorem lineContains_iff (o dir x : Vec) (e : ℝ) (hu : UnitVec dir) :
    lineContains o dir x e = true ↔ ∃ y ∈ lineThrough o dir, sqDist x y < e := by
  rw [lineContains, approxZero_iff, lineDistanceSquared, dsq, abs_of_nonneg (sqDist_nonneg _ _)]
  exact nearest_lt (line_nearest o dir x hu) e

/-! ### triangles -/

theorem cross3 (v w : Vec) : cross v w 0 = v 1 * w 2 - v 2 * w 1 ∧ cross v w 1 = v 2 * w 0 - v 0 * w 2 ∧
    cross v w 2 = v 0 * w 1 - v 1 * w 0 := by
  refine ⟨?_, ?_, ?_⟩ <;> simp [cross]

theorem proper_iff (p0 p1 p2 : Point) : Proper p0 p1 p2 ↔ cross (fun i => p1 i - p0 i) (fun i => p2 i - p0 i) ≠ 0 := by
  rw [cross_eq]; rfl

theorem mem_tri (p0 p1 p2 x : Point) : x ∈ convexHull ℝ {p0, p1, p2} ↔
    ∃ a b c : ℝ, 0 ≤ a ∧ 0 ≤ b ∧ 0 ≤ c ∧ a + b + c = 1 ∧ ∀ i, x i = a * p0 i + b * p1 i + c * p2 i := by
  rw [convexHull_insert (by simp), convexHull_pair]
  simp only [segment, convexJoin, Set.mem_iUnion, Set.mem_ofPred_eq, Set.mem_singleton_iff]
  constructor
  · rintro ⟨p, rfl, y, ⟨s, t, hs, ht, hst, rfl⟩, u, v, hu, hv, huv, rfl⟩
    refine ⟨u, v * s, v * t, hu, by positivity, by positivity, ?_, fun i => ?_⟩
    · linear_combination huv + v * hst
    · simp; ring
  · rintro ⟨a, b, c, ha, hb, hc, hs, h⟩
    by_cases hbc : b + c = 0
    · refine ⟨p0, rfl, p1, ⟨1, 0, by norm_num, by norm_num, by norm_num, by simp⟩, 1, 0, by norm_num, by norm_num,
        by norm_num, ?_⟩
      have hb0 : b = 0 := by linarith
      have hc0 : c = 0 := by linarith
      have ha1 : a = 1 := by linarith
      funext i; rw [h i, hb0, hc0, ha1]; simp
    · have hpos : 0 < b + c := lt_of_le_of_ne (by linarith) (Ne.symm hbc)
      refine ⟨p0, rfl, _, ⟨b / (b + c), c / (b + c), by positivity, by positivity, by field_simp, rfl⟩, a, b + c, ha,
        by linarith, by linarith, ?_⟩
      funext i; rw [h i]; simp; field_simp; ring

theorem triPlane_iff (p0 p1 p2 y : Point) : y ∈ triPlane p0 p1 p2 ↔
    ((p1 1 - p0 1) * (p2 2 - p0 2) - (p1 2 - p0 2) * (p2 1 - p0 1)) * (y 0 - p0 0)
    + ((p1 2 - p0 2) * (p2 0 - p0 0) - (p1 0 - p0 0) * (p2 2 - p0 2)) * (y 1 - p0 1)
    + ((p1 0 - p0 0) * (p2 1 - p0 1) - (p1 1 - p0 1) * (p2 0 - p0 0)) * (y 2 - p0 2) = 0 := by
  show _ ⬝ᵥ _ = _ ↔ _
  rw [← cross_eq, dp3]
  simp only [cross3, Pi.sub_apply]

/-- The squared length of the cross product of the edges. -/
theorem proper_pos {p0 p1 p2 : Point} (h : Proper p0 p1 p2) :
    0 < ((p1 1 - p0 1) * (p2 2 - p0 2) - (p1 2 - p0 2) * (p2 1 - p0 1)) ^ 2
      + ((p1 2 - p0 2) * (p2 0 - p0 0) - (p1 0 - p0 0) * (p2 2 - p0 2)) ^ 2
      + ((p1 0 - p0 0) * (p2 1 - p0 1) - (p1 1 - p0 1) * (p2 0 - p0 0)) ^ 2 := by
  have hl := length_pos ((proper_iff _ _ _).mp h)
  have hs := length_sq (cross (fun i => p1 i - p0 i) (fun i => p2 i - p0 i))
  simp only [cross3] at hs
  rw [← hs]; positivity

/-- A vector perpendicular to two independent vectors and to their cross product is zero. -/
theorem perp3 (a0 a1 a2 b0 b1 b2 r0 r1 r2 : ℝ)
    (hD : 0 < (a1 * b2 - a2 * b1) ^ 2 + (a2 * b0 - a0 * b2) ^ 2 + (a0 * b1 - a1 * b0) ^ 2)
    (h1 : r0 * a0 + r1 * a1 + r2 * a2 = 0) (h2 : r0 * b0 + r1 * b1 + r2 * b2 = 0)
    (h3 : (a1 * b2 - a2 * b1) * r0 + (a2 * b0 - a0 * b2) * r1 + (a0 * b1 - a1 * b0) * r2 = 0) :
    r0 = 0 ∧ r1 = 0 ∧ r2 = 0 := by
  have hD' := hD.ne'
  refine ⟨?_, ?_, ?_⟩ <;> apply mul_right_cancel₀ hD' <;> rw [zero_mul]
  · linear_combination (a1 * b2 - a2 * b1) * h3 + ((a2 * b0 - a0 * b2) * a2 - (a0 * b1 - a1 * b0) * a1) * h2
      - ((a2 * b0 - a0 * b2) * b2 - (a0 * b1 - a1 * b0) * b1) * h1
  · linear_combination (a2 * b0 - a0 * b2) * h3 + ((a0 * b1 - a1 * b0) * a0 - (a1 * b2 - a2 * b1) * a2) * h2
      - ((a0 * b1 - a1 * b0) * b0 - (a1 * b2 - a2 * b1) * b2) * h1
  · linear_combination (a0 * b1 - a1 * b0) * h3 + ((a1 * b2 - a2 * b1) * a1 - (a2 * b0 - a0 * b2) * a0) * h2
      - ((a1 * b2 - a2 * b1) * b1 - (a2 * b0 - a0 * b2) * b0) * h1

/-- The weights computed by `barycentric` solve the normal equations. -/
theorem bary_spec (p0 p1 p2 x : Vec) (h : Proper p0 p1 p2) :
    ∃ y z : ℝ, barycentric p0 p1 p2 x = some ![1 - (y + z), y, z] ∧
      (x 0 - (p0 0 + y * (p1 0 - p0 0) + z * (p2 0 - p0 0))) * (p1 0 - p0 0)
      + (x 1 - (p0 1 + y * (p1 1 - p0 1) + z * (p2 1 - p0 1))) * (p1 1 - p0 1)
      + (x 2 - (p0 2 + y * (p1 2 - p0 2) + z * (p2 2 - p0 2))) * (p1 2 - p0 2) = 0 ∧
      (x 0 - (p0 0 + y * (p1 0 - p0 0) + z * (p2 0 - p0 0))) * (p2 0 - p0 0)
      + (x 1 - (p0 1 + y * (p1 1 - p0 1) + z * (p2 1 - p0 1))) * (p2 1 - p0 1)
      + (x 2 - (p0 2 + y * (p1 2 - p0 2) + z * (p2 2 - p0 2))) * (p2 2 - p0 2) = 0 := by
  have hp := proper_pos h
  rw [barycentric]
  simp only
  generalize h00 : dot (fun i => p1 i - p0 i) (fun i => p1 i - p0 i) = d00
  generalize h01 : dot (fun i => p1 i - p0 i) (fun i => p2 i - p0 i) = d01
  generalize h11 : dot (fun i => p2 i - p0 i) (fun i => p2 i - p0 i) = d11
  generalize h20 : dot (fun i => x i - p0 i) (fun i => p1 i - p0 i) = d20
  generalize h21 : dot (fun i => x i - p0 i) (fun i => p2 i - p0 i) = d21
  rw [dot3] at h00 h01 h11 h20 h21
  have hD : 0 < d00 * d11 - d01 * d01 := by
    rw [← h00, ← h01, ← h11]
    refine lt_of_lt_of_eq hp ?_
    ring
  rw [if_neg hD.ne']
  refine ⟨_, _, rfl, ?_, ?_⟩
  · have hc : (d00 * d11 - d01 * d01) * (1 / (d00 * d11 - d01 * d01)) = 1 := mul_one_div_cancel hD.ne'
    generalize 1 / (d00 * d11 - d01 * d01) = c at *
    generalize hy : (d11 * d20 - d01 * d21) * c = y
    generalize hz : (d00 * d21 - d01 * d20) * c = z
    have : d20 - y * d00 - z * d01 = 0 := by rw [← hy, ← hz]; linear_combination -d20 * hc
    linear_combination this + h20 - y * h00 - z * h01
  · have hc : (d00 * d11 - d01 * d01) * (1 / (d00 * d11 - d01 * d01)) = 1 := mul_one_div_cancel hD.ne'
    generalize 1 / (d00 * d11 - d01 * d01) = c at *
    generalize hy : (d11 * d20 - d01 * d21) * c = y
    generalize hz : (d00 * d21 - d01 * d20) * c = z
    have : d21 - y * d01 - z * d11 = 0 := by rw [← hy, ← hz]; linear_combination -d21 * hc
    linear_combination this + h21 - y * h01 - z * h11

/-- A point of the plane of a triangle is a combination of its corners. -/
theorem plane_span {p0 p1 p2 x : Point} (h : Proper p0 p1 p2) (hx : x ∈ triPlane p0 p1 p2) :
    ∃ s t : ℝ, ∀ i, x i = p0 i + s * (p1 i - p0 i) + t * (p2 i - p0 i) := by
  obtain ⟨y, z, -, h1, h2⟩ := bary_spec p0 p1 p2 x h
  rw [triPlane_iff] at hx
  obtain ⟨e0, e1, e2⟩ := perp3 _ _ _ _ _ _ (x 0 - (p0 0 + y * (p1 0 - p0 0) + z * (p2 0 - p0 0)))
    (x 1 - (p0 1 + y * (p1 1 - p0 1) + z * (p2 1 - p0 1))) (x 2 - (p0 2 + y * (p1 2 - p0 2) + z * (p2 2 - p0 2)))
    (proper_pos h) h1 h2 (by linear_combination hx)
  refine ⟨y, z, fun i => ?_⟩
  fin_cases i <;> simp <;> linarith

theorem span_unique {p0 p1 p2 : Point} (h : Proper p0 p1 p2) (s t u v : ℝ)
    (he : ∀ i, p0 i + s * (p1 i - p0 i) + t * (p2 i - p0 i) = p0 i + u * (p1 i - p0 i) + v * (p2 i - p0 i)) :
    s = u ∧ t = v := by
  have hp := proper_pos h
  have e0 := he 0
  have e1 := he 1
  have e2 := he 2
  generalize p1 0 - p0 0 = a0 at *
  generalize p1 1 - p0 1 = a1 at *
  generalize p1 2 - p0 2 = a2 at *
  generalize p2 0 - p0 0 = b0 at *
  generalize p2 1 - p0 1 = b1 at *
  generalize p2 2 - p0 2 = b2 at *
  constructor <;> apply mul_right_cancel₀ hp.ne'
  · linear_combination (a1 * b2 - a2 * b1) * (b2 * e1 - b1 * e2) + (a2 * b0 - a0 * b2) * (b0 * e2 - b2 * e0)
      + (a0 * b1 - a1 * b0) * (b1 * e0 - b0 * e1)
  · linear_combination (a1 * b2 - a2 * b1) * (a1 * e2 - a2 * e1) + (a2 * b0 - a0 * b2) * (a2 * e0 - a0 * e2)
      + (a0 * b1 - a1 * b0) * (a0 * e1 - a1 * e0)

theorem bary_unique {p0 p1 p2 : Point} (h : Proper p0 p1 p2) (y z s t : ℝ) (x : Point)
    (h1 : (x 0 - (p0 0 + y * (p1 0 - p0 0) + z * (p2 0 - p0 0))) * (p1 0 - p0 0)
      + (x 1 - (p0 1 + y * (p1 1 - p0 1) + z * (p2 1 - p0 1))) * (p1 1 - p0 1)
      + (x 2 - (p0 2 + y * (p1 2 - p0 2) + z * (p2 2 - p0 2))) * (p1 2 - p0 2) = 0)
    (h2 : (x 0 - (p0 0 + y * (p1 0 - p0 0) + z * (p2 0 - p0 0))) * (p2 0 - p0 0)
      + (x 1 - (p0 1 + y * (p1 1 - p0 1) + z * (p2 1 - p0 1))) * (p2 1 - p0 1)
      + (x 2 - (p0 2 + y * (p1 2 - p0 2) + z * (p2 2 - p0 2))) * (p2 2 - p0 2) = 0)
    (hst : ∀ i, x i = p0 i + s * (p1 i - p0 i) + t * (p2 i - p0 i)) : y = s ∧ z = t := by
  apply span_unique h
  obtain ⟨e0, e1, e2⟩ := perp3 _ _ _ _ _ _ (x 0 - (p0 0 + y * (p1 0 - p0 0) + z * (p2 0 - p0 0)))
    (x 1 - (p0 1 + y * (p1 1 - p0 1) + z * (p2 1 - p0 1))) (x 2 - (p0 2 + y * (p1 2 - p0 2) + z * (p2 2 - p0 2)))
    (proper_pos h) h1 h2 (by rw [hst 0, hst 1, hst 2]; ring)
  intro i
  rw [← hst i]
  fin_cases i <;> simp <;> linarith

/-- `contains` for a point of the plane, in terms of its weights. -/
theorem triContains_plane {p0 p1 p2 x : Point} (h : Proper p0 p1 p2) (hx : x ∈ triPlane p0 p1 p2) {e : ℝ} (he : 0 < e)
    (s t : ℝ) (hst : ∀ i, x i = p0 i + s * (p1 i - p0 i) + t * (p2 i - p0 i)) :
    triContains p0 p1 p2 x e = true ↔ 0 ≤ (1 - s - t) * s ∧ 0 ≤ (1 - s - t) * t := by
  obtain ⟨n, hn, hu, k, hk, -, hkn⟩ := normalizeNaN_spec ((proper_iff _ _ _).mp h)
  rw [triPlane_iff] at hx
  have hc : triCoplanar p0 p1 p2 x e = true := by
    rw [triCoplanar, triNormal, hn]
    simp only
    rw [approxZero_iff, dot3, hkn, hkn, hkn]
    simp only [cross3]
    have : (x 0 - p0 0) * (k * ((p1 1 - p0 1) * (p2 2 - p0 2) - (p1 2 - p0 2) * (p2 1 - p0 1)))
        + (x 1 - p0 1) * (k * ((p1 2 - p0 2) * (p2 0 - p0 0) - (p1 0 - p0 0) * (p2 2 - p0 2)))
        + (x 2 - p0 2) * (k * ((p1 0 - p0 0) * (p2 1 - p0 1) - (p1 1 - p0 1) * (p2 0 - p0 0))) = 0 := by
      linear_combination k * hx
    rw [this, abs_zero]; exact he
  have hp := proper_pos h
  rw [triContains, hc, Bool.true_and, triContainsCoplanar]
  simp only [Bool.and_eq_true, decide_eq_true_eq, dot3, cross3, ge_iff_le]
  rw [hst 0, hst 1, hst 2]
  generalize hN : ((p1 1 - p0 1) * (p2 2 - p0 2) - (p1 2 - p0 2) * (p2 1 - p0 1)) ^ 2
      + ((p1 2 - p0 2) * (p2 0 - p0 0) - (p1 0 - p0 0) * (p2 2 - p0 2)) ^ 2
      + ((p1 0 - p0 0) * (p2 1 - p0 1) - (p1 1 - p0 1) * (p2 0 - p0 0)) ^ 2 = N at hp
  have key : ∀ a w : ℝ, a = w * N → (0 ≤ a ↔ 0 ≤ w) := fun a w ha => by
    rw [ha]; exact mul_nonneg_iff_of_pos_right hp
  apply and_congr <;> apply key <;> rw [← hN] <;> ring

end Verif.Proofs.Geometry
