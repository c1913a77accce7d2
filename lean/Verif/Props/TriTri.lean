import Verif.Proofs.TriTri

/-!
# Two triangles

A triangle is the convex hull of its corners; `epsilon` is the tolerance of the implementation (`default_epsilon`, 10⁻⁵ for
`float`).  The arithmetic is exact.
-/

namespace Verif.Props.TriTri

open Verif.Model.Vector Verif.Model.Geometry Verif.Model.TriTri Verif.Spec.Geometry Verif.Spec.Triangles
open Verif.Proofs.Geometry Verif.Proofs.TriTri

/-! ### C132: intersection -/

/-- C132 (partial): `triangle::intersects` tells whether two triangles share a point, whether they cross, touch or lie in one
plane.  Missing: corners that are close to the plane of the other triangle, relative to its size; the code treats them as if
they were in the plane, whatever the size of the triangles (see the violations below). -/
theorem C132_intersects_partial (epsilon : ℝ) (v0 v1 v2 u0 u1 u2 : Point) (hv : Proper v0 v1 v2) (hu : Proper u0 u1 u2)
    (cu : Clear epsilon v0 v1 v2 u0 u1 u2) (cv : Clear epsilon u0 u1 u2 v0 v1 v2) :
    intersects epsilon v0 v1 v2 u0 u1 u2 = true ↔ Meets (convexHull ℝ {v0, v1, v2}) (convexHull ℝ {u0, u1, u2}) :=
  intersects_iff hv hu cu cv

/-- Two triangles that cross. -/
theorem cross_example : Proper ![0, 0, 0] ![4, 0, 0] ![0, 4, 0] ∧ Proper ![1, 1, -1] ![1, 1, 1] ![1, 2, 1] ∧
    Clear (1 / 10 ^ 5) ![0, 0, 0] ![4, 0, 0] ![0, 4, 0] ![1, 1, -1] ![1, 1, 1] ![1, 2, 1] ∧
    Clear (1 / 10 ^ 5) ![1, 1, -1] ![1, 1, 1] ![1, 2, 1] ![0, 0, 0] ![4, 0, 0] ![0, 4, 0] ∧
    Meets (convexHull ℝ {![0, 0, 0], ![4, 0, 0], ![0, 4, 0]}) (convexHull ℝ {![1, 1, -1], ![1, 1, 1], ![1, 2, 1]}) := by
  refine ⟨?_, ?_, ?_, ?_, ![1, 1, 0], ?_, ?_⟩
  · rw [proper_iff]; intro h; have := congrFun h 2; simp [cross] at this
  · rw [proper_iff]; intro h; have := congrFun h 0; simp [cross] at this; norm_num at this
  · rintro q (rfl | rfl | rfl) <;> right <;> rw [tetra_eq] <;> simp only [normal3, Matrix.cons_val] <;> norm_num
  · rintro q (rfl | rfl | rfl) <;> right <;> rw [tetra_eq] <;> simp only [normal3, Matrix.cons_val] <;> norm_num
  · rw [mem_tri]
    exact ⟨1 / 2, 1 / 4, 1 / 4, by norm_num, by norm_num, by norm_num, by norm_num,
      fun i => by fin_cases i <;> norm_num [Matrix.cons_val]⟩
  · rw [mem_tri]
    exact ⟨1 / 2, 1 / 2, 0, by norm_num, by norm_num, by norm_num, by norm_num,
      fun i => by fin_cases i <;> norm_num [Matrix.cons_val]⟩

example : intersects (1 / 10 ^ 5) ![0, 0, 0] ![4, 0, 0] ![0, 4, 0] ![1, 1, -1] ![1, 1, 1] ![1, 2, 1] = true := by
  obtain ⟨h1, h2, h3, h4, h5⟩ := cross_example
  exact (C132_intersects_partial _ _ _ _ _ _ _ h1 h2 h3 h4).mpr h5

/-- C132 is false of the code: whatever the tolerance, there are triangles as far apart as one likes that are reported to
intersect.  Two copies of a small triangle, one above the other, are enough. -/
theorem C132_far_violated (epsilon R : ℝ) (he : 0 < epsilon) (hR : 0 < R) :
    ∃ v0 v1 v2 u0 u1 u2 : Point, Proper v0 v1 v2 ∧ Proper u0 u1 u2 ∧
      (∀ x ∈ convexHull ℝ {v0, v1, v2}, ∀ y ∈ convexHull ℝ {u0, u1, u2}, R ≤ eDist x y) ∧
      intersects epsilon v0 v1 v2 u0 u1 u2 = true := by
  obtain ⟨s, hs, hb⟩ : ∃ s : ℝ, 0 < s ∧ s * s * R < epsilon := by
    refine ⟨epsilon / (epsilon + R), by positivity, ?_⟩
    have h1 : epsilon / (epsilon + R) < 1 := by rw [div_lt_one (by positivity)]; linarith
    have h2 : epsilon / (epsilon + R) * R < epsilon := by
      rw [div_mul_eq_mul_div, div_lt_iff₀ (by positivity)]; nlinarith
    have h3 : 0 < epsilon / (epsilon + R) := by positivity
    nlinarith [mul_pos h3 hR]
  have hs2 : 0 < s * s := mul_pos hs hs
  refine ⟨![0, 0, 0], ![s, 0, 0], ![0, s, 0], ![0, 0, R], ![s, 0, R], ![0, s, R], ?_, ?_, ?_, ?_⟩
  · rw [proper_iff]; intro h; have := congrFun h 2; simp [cross] at this; exact hs.ne' this
  · rw [proper_iff]; intro h; have := congrFun h 2; simp [cross] at this; exact hs.ne' this
  · intro x hx y hy
    obtain ⟨a, b, c, -, -, -, -, ex⟩ := (mem_tri _ _ _ _).mp hx
    obtain ⟨a', b', c', -, -, -, hsum, ey⟩ := (mem_tri _ _ _ _).mp hy
    have x2 : x 2 = 0 := by rw [ex 2]; simp
    have y2 : y 2 = R := by
      have : y 2 = a' * R + b' * R + c' * R := by rw [ey 2]; simp
      rw [this, ← add_mul, ← add_mul, hsum, one_mul]
    rw [eDist]
    apply Real.le_sqrt_of_sq_le
    rw [sq3, x2, y2]
    nlinarith [sq_nonneg (x 0 - y 0), sq_nonneg (x 1 - y 1)]
  · have n1 : normal ![0, 0, 0] ![s, 0, 0] ![0, s, 0] = ![0, 0, s * s] := by
      funext i; fin_cases i <;> simp [normal, cross]
    have n2 : normal ![0, 0, R] ![s, 0, R] ![0, s, R] = ![0, 0, s * s] := by
      funext i; fin_cases i <;> simp [normal, cross]
    have sd : ∀ x y z w : ℝ, z - w = R ∨ z - w = -R → side epsilon ![0, 0, s * s] ![0, 0, w] ![x, y, z] = 0 := by
      intro x y z w hz
      rw [side, snap, if_pos]
      have e : dot ![0, 0, s * s] ![x, y, z] + -dot ![0, 0, s * s] ![0, 0, w] = s * s * (z - w) := by
        rw [dot_dp, dot_dp, dp3, dp3]; simp; ring
      rw [e, abs_lt]
      rcases hz with hz | hz <;> rw [hz] <;> constructor <;> nlinarith [mul_pos hs2 hR]
    unfold intersects
    simp only [n1, n2]
    rw [sd _ _ _ _ (by left; ring), sd _ _ _ _ (by left; ring), sd _ _ _ _ (by left; ring),
      sd _ _ _ _ (by right; ring), sd _ _ _ _ (by right; ring), sd _ _ _ _ (by right; ring)]
    rw [if_neg (by simp), if_neg (by simp), (intervals_zero _ _ _ _).1]
    have ax : axes ![0, 0, s * s] = (0, 1) := by
      unfold axes
      rw [if_neg (by simp), if_pos (by simpa using hs2.ne')]
    simp only [coplanar, ax]
    have key : edgeEdge 0 1 (![s, 0, 0] 0 - ![0, 0, 0] 0) (![s, 0, 0] 1 - ![0, 0, 0] 1) ![0, 0, 0] ![s, 0, R] ![0, s, R] = true := by
      simp [edgeEdge, hs2, hs2.le]
    simp only [edgeAgainstTri, key, Bool.or_true, Bool.true_or]

/-- C132 is false of the code: whatever the tolerance, there are triangles that cross in their interiors and are reported not
to intersect. -/
theorem C132_missed_violated (epsilon : ℝ) (he : 0 < epsilon) :
    ∃ v0 v1 v2 u0 u1 u2 : Point, Proper v0 v1 v2 ∧ Proper u0 u1 u2 ∧
      Meets (convexHull ℝ {v0, v1, v2}) (convexHull ℝ {u0, u1, u2}) ∧
      intersects epsilon v0 v1 v2 u0 u1 u2 = false := by
  refine ⟨![0, 0, 0], ![1, 0, 0], ![0, epsilon, 0], ![3, epsilon / 2, -1 / 2], ![-6, epsilon / 2, 1], ![-2, epsilon / 2, 1],
    ?_, ?_, ⟨![1 / 4, epsilon / 2, 0], ?_, ?_⟩, ?_⟩
  · rw [proper_iff]; intro h; have := congrFun h 2; simp [cross] at this; exact he.ne' this
  · rw [proper_iff]; intro h; have := congrFun h 1; simp [cross] at this; norm_num at this
  · rw [mem_tri]
    exact ⟨1 / 4, 1 / 4, 1 / 2, by norm_num, by norm_num, by norm_num, by norm_num,
      fun i => by fin_cases i <;> simp; ring⟩
  · rw [mem_tri]
    refine ⟨2 / 3, 13 / 48, 1 / 16, by norm_num, by norm_num, by norm_num, by norm_num, fun i => ?_⟩
    fin_cases i
    · norm_num
    · simp; ring
    · norm_num
  · have n1 : normal ![0, 0, 0] ![1, 0, 0] ![0, epsilon, 0] = ![0, 0, epsilon] := by
      funext i; fin_cases i <;> simp [normal, cross]
    have n2 : normal ![3, epsilon / 2, -1 / 2] ![-6, epsilon / 2, 1] ![-2, epsilon / 2, 1] = ![0, 6, 0] := by
      funext i; fin_cases i <;> simp [normal, cross] <;> norm_num
    have e0 : side epsilon ![0, 0, epsilon] ![0, 0, 0] ![3, epsilon / 2, -1 / 2] = 0 := by
      rw [side, snap, if_pos]
      rw [dot_dp, dot_dp, dp3, dp3]
      simp only [Matrix.cons_val]
      rw [abs_lt]; constructor <;> linarith
    have e1 : ∀ x y : ℝ, side epsilon ![0, 0, epsilon] ![0, 0, 0] ![x, y, 1] = epsilon := by
      intro x y
      rw [side, dot_dp, dot_dp, dp3, dp3]
      simp [snap, abs_of_pos he]
    have f1 : ∀ x : ℝ, side epsilon ![0, 6, 0] ![3, epsilon / 2, -1 / 2] ![x, 0, 0] = -(3 * epsilon) := by
      intro x
      have : dot ![0, 6, 0] ![x, 0, 0] + -dot ![0, 6, 0] ![3, epsilon / 2, -1 / 2] = -(3 * epsilon) := by
        rw [dot_dp, dot_dp, dp3, dp3]; simp; ring
      rw [side, this, snap, if_neg]
      rw [abs_neg, abs_of_pos (by linarith)]; linarith
    have f2 : side epsilon ![0, 6, 0] ![3, epsilon / 2, -1 / 2] ![0, epsilon, 0] = 3 * epsilon := by
      have : dot ![0, 6, 0] ![0, epsilon, 0] + -dot ![0, 6, 0] ![3, epsilon / 2, -1 / 2] = 3 * epsilon := by
        rw [dot_dp, dot_dp, dp3, dp3]; simp; ring
      rw [side, this, snap, if_neg]
      rw [abs_of_pos (by linarith)]; linarith
    have ax : longestAxis (cross ![0, 0, epsilon] ![0, 6, 0]) = 0 := by
      have c : cross ![0, 0, epsilon] ![0, 6, 0] = ![-(epsilon * 6), 0, 0] := by
        funext i; fin_cases i <;> simp [cross]
      rw [c]
      have h6 : ¬ |epsilon| * 6 < 0 := not_lt.mpr (by positivity)
      simp [longestAxis, h6]
    unfold intersects
    simp only [n1, n2]
    rw [e0, e1, e1, f1, f1, f2, ax]
    have hee : 0 < epsilon * epsilon := mul_pos he he
    rw [if_neg (by simp), if_neg (by rintro ⟨-, h⟩; nlinarith)]
    have i1 : computeIntervals ((![0, 0, 0] : Vec) 0) ((![1, 0, 0] : Vec) 0) ((![0, epsilon, 0] : Vec) 0) (-(3 * epsilon))
        (-(3 * epsilon)) (3 * epsilon) (-(3 * epsilon) * -(3 * epsilon)) (-(3 * epsilon) * (3 * epsilon))
        = some ⟨0, 0, 3 * epsilon, 6 * epsilon, 6 * epsilon⟩ := by
      rw [computeIntervals, if_pos (by nlinarith)]
      simp
      ring
    have i2 : computeIntervals ((![3, epsilon / 2, -1 / 2] : Vec) 0) ((![-6, epsilon / 2, 1] : Vec) 0)
        ((![-2, epsilon / 2, 1] : Vec) 0) 0 epsilon epsilon (0 * epsilon) (0 * epsilon)
        = some ⟨3, 0, 0, -epsilon, -epsilon⟩ := by
      rw [computeIntervals, if_neg (by simp), if_neg (by simp), if_pos (Or.inl hee)]
      simp
    rw [i1, i2]
    simp only
    have hk : 0 < epsilon * epsilon * (epsilon * epsilon) := mul_pos hee hee
    rw [if_pos]
    left
    have s1 : sort ((0 : ℝ) * (6 * epsilon * (6 * epsilon) * (-epsilon * -epsilon)) + 0 * (6 * epsilon) * (-epsilon * -epsilon),
        (0 : ℝ) * (6 * epsilon * (6 * epsilon) * (-epsilon * -epsilon)) + 3 * epsilon * (6 * epsilon) * (-epsilon * -epsilon))
        = (0, 18 * (epsilon * epsilon * (epsilon * epsilon))) := by
      rw [sort, if_neg]
      · refine Prod.ext (by simp) (by simp; ring)
      · simp only [not_lt]; nlinarith
    have s2 : sort ((3 : ℝ) * (6 * epsilon * (6 * epsilon) * (-epsilon * -epsilon)) + 0 * (6 * epsilon * (6 * epsilon)) * -epsilon,
        (3 : ℝ) * (6 * epsilon * (6 * epsilon) * (-epsilon * -epsilon)) + 0 * (6 * epsilon * (6 * epsilon)) * -epsilon)
        = (108 * (epsilon * epsilon * (epsilon * epsilon)), 108 * (epsilon * epsilon * (epsilon * epsilon))) := by
      rw [sort, if_neg (lt_irrefl _)]
      refine Prod.ext ?_ ?_ <;> ring
    rw [s1, s2]
    simp only
    linarith

/-! ### C133: the segment of intersection -/

/-- C133 (partial): `triangle::intersects(tri1, tri2, seg)` returns whether the triangles share a point.  If they do and are
not in one plane, `seg` is exactly the set of common points; otherwise `seg` is empty.  Missing: as for C132. -/
theorem C133_segment_partial (epsilon : ℝ) (v0 v1 v2 u0 u1 u2 : Point) (hv : Proper v0 v1 v2) (hu : Proper u0 u1 u2)
    (cu : Clear epsilon v0 v1 v2 u0 u1 u2) (cv : Clear epsilon u0 u1 u2 v0 v1 v2) :
    ∃ (b : Bool) (seg : Option (Point × Point)), intersectsSeg epsilon v0 v1 v2 u0 u1 u2 = some (b, seg) ∧
      (b = true ↔ Meets (convexHull ℝ {v0, v1, v2}) (convexHull ℝ {u0, u1, u2})) ∧
      (seg.isSome ↔ b = true ∧ ¬ Coplanar v0 v1 v2 u0 u1 u2) ∧
      ∀ p q, seg = some (p, q) → segment ℝ p q = convexHull ℝ {v0, v1, v2} ∩ convexHull ℝ {u0, u1, u2} := by
  rcases intersectsSeg_eq hv hu cu cv with ⟨hm, e⟩ | ⟨hm, hc, e⟩ | ⟨hm, hc, P, Q, e, hs⟩
  · exact ⟨_, _, e, by simp [hm], by simp, by simp⟩
  · exact ⟨_, _, e, by simp [hm], by simp [hc], by simp⟩
  · refine ⟨_, _, e, by simp [hm], by simp [hc], ?_⟩
    intro p q h
    simp only [Option.some.injEq, Prod.mk.injEq] at h
    rw [← h.1, ← h.2]; exact hs

example : ∃ p q, intersectsSeg (1 / 10 ^ 5) ![0, 0, 0] ![4, 0, 0] ![0, 4, 0] ![1, 1, -1] ![1, 1, 1] ![1, 2, 1]
    = some (true, some (p, q)) := by
  obtain ⟨h1, h2, h3, h4, h5⟩ := cross_example
  obtain ⟨b, seg, e, hb, hs, -⟩ := C133_segment_partial _ _ _ _ _ _ _ h1 h2 h3 h4
  have hbt := hb.mpr h5
  have : seg.isSome := hs.mpr ⟨hbt, fun hc => by
    have := hc _ (by simp : (![1, 1, -1] : Point) ∈ _)
    rw [tetra_plane, tetra_eq] at this
    simp only [normal3, Matrix.cons_val] at this
    norm_num at this⟩
  obtain ⟨⟨p, q⟩, rfl⟩ := Option.isSome_iff_exists.mp this
  exact ⟨p, q, by rw [e, hbt]⟩

/-- C133 is false of the code: whatever the tolerance, there are crossing triangles for which the function reads variables it
has not initialised, which is undefined behaviour. -/
theorem C133_undefined_violated (epsilon : ℝ) (he : 0 < epsilon) :
    ∃ v0 v1 v2 u0 u1 u2 : Point, Proper v0 v1 v2 ∧ Proper u0 u1 u2 ∧
      Meets (convexHull ℝ {v0, v1, v2}) (convexHull ℝ {u0, u1, u2}) ∧
      intersectsSeg epsilon v0 v1 v2 u0 u1 u2 = none := by
  refine ⟨![0, 0, 0], ![1, 0, 0], ![0, epsilon, 0], ![-1, epsilon / 2, -1 / 2], ![3, epsilon / 2, -1 / 2],
    ![-1, epsilon / 2, 1 / 2], ?_, ?_, ⟨![1 / 4, epsilon / 2, 0], ?_, ?_⟩, ?_⟩
  · rw [proper_iff]; intro h; have := congrFun h 2; simp [cross] at this; exact he.ne' this
  · rw [proper_iff]; intro h; have := congrFun h 1; simp [cross] at this; norm_num at this
  · rw [mem_tri]
    exact ⟨1 / 4, 1 / 4, 1 / 2, by norm_num, by norm_num, by norm_num, by norm_num,
      fun i => by fin_cases i <;> simp; ring⟩
  · rw [mem_tri]
    refine ⟨3 / 16, 5 / 16, 1 / 2, by norm_num, by norm_num, by norm_num, by norm_num, fun i => ?_⟩
    fin_cases i
    · norm_num
    · simp; ring
    · norm_num
  · have n1 : normal ![0, 0, 0] ![1, 0, 0] ![0, epsilon, 0] = ![0, 0, epsilon] := by
      funext i; fin_cases i <;> simp [normal, cross]
    have n2 : normal ![-1, epsilon / 2, -1 / 2] ![3, epsilon / 2, -1 / 2] ![-1, epsilon / 2, 1 / 2] = ![0, -4, 0] := by
      funext i; fin_cases i <;> simp [normal, cross] <;> norm_num
    have e0 : ∀ x y z : ℝ, z = -1 / 2 ∨ z = 1 / 2 → side epsilon ![0, 0, epsilon] ![0, 0, 0] ![x, y, z] = 0 := by
      intro x y z hz
      rw [side, snap, if_pos]
      rw [dot_dp, dot_dp, dp3, dp3]
      simp only [Matrix.cons_val]
      rw [abs_lt]
      rcases hz with rfl | rfl <;> constructor <;> linarith
    have f1 : ∀ x : ℝ, side epsilon ![0, -4, 0] ![-1, epsilon / 2, -1 / 2] ![x, 0, 0] = 2 * epsilon := by
      intro x
      have : dot ![0, -4, 0] ![x, 0, 0] + -dot ![0, -4, 0] ![-1, epsilon / 2, -1 / 2] = 2 * epsilon := by
        rw [dot_dp, dot_dp, dp3, dp3]; simp; ring
      rw [side, this, snap, if_neg]
      rw [abs_of_pos (by linarith)]; linarith
    have f2 : side epsilon ![0, -4, 0] ![-1, epsilon / 2, -1 / 2] ![0, epsilon, 0] = -(2 * epsilon) := by
      have : dot ![0, -4, 0] ![0, epsilon, 0] + -dot ![0, -4, 0] ![-1, epsilon / 2, -1 / 2] = -(2 * epsilon) := by
        rw [dot_dp, dot_dp, dp3, dp3]; simp; ring
      rw [side, this, snap, if_neg]
      rw [abs_neg, abs_of_pos (by linarith)]; linarith
    have hee : 0 < epsilon * epsilon := mul_pos he he
    unfold intersectsSeg
    simp only [n1, n2]
    rw [e0 _ _ _ (Or.inl rfl), e0 _ _ _ (Or.inl rfl), e0 _ _ _ (Or.inr rfl), f1, f1, f2]
    rw [if_neg (by simp), if_neg (by rintro ⟨-, h⟩; nlinarith)]
    have i1 : ∀ (t0 t1 t2 : Vec) (a b c : ℝ), ∃ S, computeSection t0 t1 t2 a b c (2 * epsilon) (2 * epsilon) (-(2 * epsilon))
        (2 * epsilon * (2 * epsilon)) (2 * epsilon * -(2 * epsilon)) = some S := by
      intro t0 t1 t2 a b c
      exact ⟨_, by rw [computeSection, if_pos (by nlinarith)]⟩
    obtain ⟨S, hS⟩ := i1 ![0, 0, 0] ![1, 0, 0] ![0, epsilon, 0]
      ((![0, 0, 0] : Vec) (longestAxis (cross ![0, 0, epsilon] ![0, -4, 0])))
      ((![1, 0, 0] : Vec) (longestAxis (cross ![0, 0, epsilon] ![0, -4, 0])))
      ((![0, epsilon, 0] : Vec) (longestAxis (cross ![0, 0, epsilon] ![0, -4, 0])))
    rw [hS]
    simp only [(intervals_zero _ _ _ _).2]

end Verif.Props.TriTri
