import Verif.Proofs.FloatSphere
import Verif.Spec.Representable
import Verif.Props.FloatVector
import Verif.Props.FloatBox
/-!
# C175: bounding spheres of floating-point numbers
-/
namespace Verif.Props.FloatSphere
open Verif.Spec.IeeeArith Verif.Spec.FloatFormat Verif.Spec.Representable Verif.Model.VectorStore Verif.Model.FloatVector Verif.Model.FloatSphere
open Verif.Proofs.FloatVector Verif.Proofs.FloatSphere Verif.Proofs.FloatBox
open Verif.Props.FloatVector (num)
open Verif.Props.FloatBox (BoxOf)
open Verif.Spec.Region

/-- `v` is the point `P` of three numbers of the format. -/
def IsPoint (f : Format) (v : Store Number 3) (P : Fin 3 → ℚ) : Prop := (∀ a ∈ parts v, f.Has a) ∧ Are (parts v) [P 0, P 1, P 2]

/-- the squared distance of two points -/
def sqDist (P Q : Fin 3 → ℚ) : ℚ := ∑ i, (P i - Q i) ^ 2

theorem IsPoint.point {f : Format} {v : Store Number 3} {P : Fin 3 → ℚ} (h : IsPoint f v P) : Point f v (P 0) (P 1) (P 2) := ⟨h.1, h.2⟩

theorem in_ball {P Q C : Fin 3 → ℚ} {m B t : ℚ} (hm : 0 ≤ m) (h1 : m ^ 5 * sqDist P C ≤ B) (h2 : m ^ 5 * sqDist Q C ≤ B) (t0 : 0 ≤ t) (t1 : t ≤ 1) :
    m ^ 5 * sqDist (fun i => (1 - t) * P i + t * Q i) C ≤ B := by
  have h : sqDist (fun i => (1 - t) * P i + t * Q i) C ≤ (1 - t) * sqDist P C + t * sqDist Q C := by
    unfold sqDist
    rw [Finset.mul_sum, Finset.mul_sum, ← Finset.sum_add_distrib]
    refine Finset.sum_le_sum fun i _ => ?_
    have : 0 ≤ t * (1 - t) * (P i - Q i) ^ 2 := mul_nonneg (mul_nonneg t0 (by linarith)) (sq_nonneg _)
    nlinarith
  have h3 := mul_le_mul_of_nonneg_left h (pow_nonneg hm 5)
  have h4 := mul_le_mul_of_nonneg_left h1 (by linarith : 0 ≤ 1 - t)
  have h5 := mul_le_mul_of_nonneg_left h2 t0
  nlinarith

theorem rest (f : Format) : 0 ≤ 1 - f.u := by linarith [u_le_one f]

/-- A point that `contains` accepts is in the sphere, but for a relative error of a few units of round-off and a few of the least numbers, even if the squared distance overflows. The
square of the radius must not overflow. -/
theorem C175_sound_partial (f : Format) (hp : 1 ≤ f.p) (k : Store Bool 3) (s : Sphere) (C : Fin 3 → ℚ) (R : ℚ) (hc : IsPoint f s.center C) (hr : value s.radius = some R)
    (v : Store Number 3) (P : Fin 3 → ℚ) (hv : IsPoint f v P) (hg : (1 + f.u) * R ^ 2 + f.tiny ≤ f.greatest) (h : contains f k s v = some true) :
    (1 - f.u) ^ 5 * sqDist P C ≤ (1 + f.u) * R ^ 2 + 6 * f.tiny := by
  obtain ⟨d, h1, h2⟩ := low_dist hp k hc.point hv.point
  have h3 : Model.FloatBox.atMost d (Op.mul.eval f s.radius s.radius) = true := by
    unfold contains at h
    rw [h1, Option.map_some] at h
    exact Option.some.inj h
  have := atMost_low_high h2 (high_radius hp hr hg) h3
  rw [show (P 0 - C 0) ^ 2 + (P 1 - C 1) ^ 2 + (P 2 - C 2) ^ 2 = sqDist P C by unfold sqDist; rw [Fin.sum_univ_three]] at this
  linarith

/-- A point that is in the sphere by a few units of round-off and a few of the least numbers is accepted by `contains`, even if the square of the radius overflows. -/
theorem C175_complete (f : Format) (hp : 1 ≤ f.p) (h2 : 2 ≤ f.greatest) (k : Store Bool 3) (s : Sphere) (C : Fin 3 → ℚ) (R : ℚ) (hc : IsPoint f s.center C)
    (hr : value s.radius = some R) (v : Store Number 3) (P : Fin 3 → ℚ) (hv : IsPoint f v P)
    (h : (1 + f.u) ^ 5 * sqDist P C + 6 * (1 + f.u) ^ 2 * f.tiny ≤ (1 - f.u) * R ^ 2) : contains f k s v = some true := by
  have hu := u_pos f
  have ht := tiny_pos f
  have one := one_le f 2
  have t1 : f.tiny ≤ (1 + f.u) ^ 2 * f.tiny := le_mul_of_one_le_left ht.le one
  obtain ⟨d, d1, d2⟩ := low_dist hp k hc.point hv.point
  have dd : (P 0 - C 0) ^ 2 + (P 1 - C 1) ^ 2 + (P 2 - C 2) ^ 2 = sqDist P C := by unfold sqDist; rw [Fin.sum_univ_three]
  unfold contains
  rw [d1, Option.map_some]
  congr 1
  have lr := low_radius (f := f) hp (by linarith) hr
  rcases id lr with hi | ⟨X, x1, x2, x3, x4⟩
  · rw [hi]
    rcases d2 with rfl | ⟨Y, y1, -⟩
    · rfl
    · cases d <;> simp [value] at y1
      rfl
  · have hX : X ≤ f.greatest := by
      rcases out hp (by linarith) (value_mul hr hr) (fun s a => square_mag s a) with ⟨g1, g2⟩ | ⟨-, g2⟩ | ⟨-, g2⟩
      · have : Op.mul.eval f s.radius s.radius = f.round (s.radius.mul s.radius) := rfl
        rw [this, g2] at x1
        cases x1
        exact (le_abs_self _).trans g1
      · have : Op.mul.eval f s.radius s.radius = f.round (s.radius.mul s.radius) := rfl
        rw [this, g2] at x1; simp [value] at x1
      · have : Op.mul.eval f s.radius s.radius = f.round (s.radius.mul s.radius) := rfl
        rw [this, g2] at x1; simp [value] at x1
    obtain ⟨d', e1, e2⟩ := high_dist hp h2 k hc.point hv.point (by rw [dd]; linarith)
    rw [d1] at e1
    cases e1
    refine atMost_high_low e2 lr ?_
    rw [dd]
    linarith

/-- `float`: a unit sphere about (1, 2, 3) contains a point that is less than 1 - 10⁻⁶ from the centre, and none that is more than 1 + 10⁻⁶ from it. -/
example : IsPoint binary32 (.three (num 1) (num 2) (num 3)) ![1, 2, 3] ∧ value (num 1) = some 1 ∧ (1 + binary32.u) * 1 ^ 2 + binary32.tiny ≤ binary32.greatest ∧
    (1 + binary32.u) ^ 5 * (1 - 1 / 10 ^ 6) ^ 2 + 6 * (1 + binary32.u) ^ 2 * binary32.tiny ≤ (1 - binary32.u) * 1 ^ 2 ∧
    ¬(1 - binary32.u) ^ 5 * (1 + 1 / 10 ^ 6) ^ 2 ≤ (1 + binary32.u) * 1 ^ 2 + 6 * binary32.tiny := by
  refine ⟨⟨?_, by decide +kernel⟩, by decide +kernel, by decide +kernel, by decide +kernel, by decide +kernel⟩
  intro a ha
  simp only [parts, List.mem_cons, List.not_mem_nil, or_false] at ha
  rcases ha with rfl | rfl | rfl
  · exact ⟨⟨1, 0, by decide, by decide, by norm_num⟩, by decide +kernel⟩
  · exact ⟨⟨2, 0, by decide, by decide, by norm_num⟩, by decide +kernel⟩
  · exact ⟨⟨3, 0, by decide, by decide, by norm_num⟩, by decide +kernel⟩

example : contains binary32 (.three false true true) ⟨.three (num 1) (num 2) (num 3), num 1⟩ (.three (num (3 / 2)) (num (3 / 2)) (num (7 / 2))) = some true ∧
    contains binary32 (.three false true true) ⟨.three (num 1) (num 2) (num 3), num 1⟩ (.three (num 2) (num (3 / 2)) (num 3)) = some false := by decide +kernel

/-- In general it is wrong: a `float` sphere of radius 2^64 contains the point at distance 2^100, and one of radius 2^-77 the point at distance 2^-76, because the squares overflow or
underflow. -/
theorem C175_violated :
    contains binary32 (.three false false false) ⟨.three (num 0) (num 0) (num 0), num (2 ^ 64)⟩ (.three (num (2 ^ 100)) (num 0) (num 0)) = some true ∧
    contains binary32 (.three false false false) ⟨.three (num 0) (num 0) (num 0), num (2 ^ (-77 : ℤ))⟩ (.three (num (2 ^ (-76 : ℤ))) (num 0) (num 0)) = some true ∧
    binary32.Has (num (2 ^ 64)) ∧ binary32.Has (num (2 ^ 100)) ∧ binary32.Has (num (2 ^ (-76 : ℤ))) ∧ binary32.Has (num (2 ^ (-77 : ℤ))) := by
  refine ⟨by decide +kernel, by decide +kernel, ?_, ?_, ?_, ?_⟩
  · exact ⟨⟨1, 64, by decide, by decide, by norm_num⟩, by decide +kernel⟩
  · exact ⟨⟨1, 100, by decide, by decide, by norm_num⟩, by decide +kernel⟩
  · refine ⟨⟨1, -76, by decide, by decide, ?_⟩, by decide +kernel⟩
    rw [abs_of_pos (by positivity)]; simp
  · refine ⟨⟨1, -77, by decide, by decide, ?_⟩, by decide +kernel⟩
    rw [abs_of_pos (by positivity)]; simp

/-- Every point of a segment whose ends `contains` accepts is in the sphere, with the same error. -/
theorem C175_segment_partial (f : Format) (hp : 1 ≤ f.p) (k : Store Bool 3) (s : Sphere) (C : Fin 3 → ℚ) (R : ℚ) (hc : IsPoint f s.center C) (hr : value s.radius = some R)
    (v w : Store Number 3) (P Q : Fin 3 → ℚ) (hv : IsPoint f v P) (hw : IsPoint f w Q) (hg : (1 + f.u) * R ^ 2 + f.tiny ≤ f.greatest)
    (h : containsSegment f k s v w = some true) (t : ℚ) (h0 : 0 ≤ t) (h1 : t ≤ 1) :
    (1 - f.u) ^ 5 * sqDist (fun i => (1 - t) * P i + t * Q i) C ≤ (1 + f.u) * R ^ 2 + 6 * f.tiny := by
  obtain ⟨p1, p2⟩ : contains f k s v = some true ∧ contains f k s w = some true := by
    unfold containsSegment at h
    cases e : contains f k s v with
    | none => simp [e] at h
    | some b => cases b <;> simp_all
  exact in_ball (rest f) (C175_sound_partial f hp k s C R hc hr v P hv hg p1) (C175_sound_partial f hp k s C R hc hr w Q hw hg p2) h0 h1

example : containsSegment binary32 (.three false true true) ⟨.three (num 1) (num 2) (num 3), num 1⟩ (.three (num (3 / 2)) (num (3 / 2)) (num (7 / 2))) (.three (num 1) (num 2) (num 4)) = some true ∧
    containsSegment binary32 (.three false true true) ⟨.three (num 1) (num 2) (num 3), num 1⟩ (.three (num (3 / 2)) (num (3 / 2)) (num (7 / 2))) (.three (num 1) (num 2) (num 5)) = some false := by
  decide +kernel

/-- Every point of a triangle whose corners `contains` accepts is in the sphere, with the same error. -/
theorem C175_triangle_partial (f : Format) (hp : 1 ≤ f.p) (k : Store Bool 3) (s : Sphere) (C : Fin 3 → ℚ) (R : ℚ) (hc : IsPoint f s.center C) (hr : value s.radius = some R)
    (v w x : Store Number 3) (P Q S : Fin 3 → ℚ) (hv : IsPoint f v P) (hw : IsPoint f w Q) (hx : IsPoint f x S) (hg : (1 + f.u) * R ^ 2 + f.tiny ≤ f.greatest)
    (h : containsTriangle f k s v w x = some true) (a b c : ℚ) (ha : 0 ≤ a) (hb : 0 ≤ b) (hc' : 0 ≤ c) (h1 : a + b + c = 1) :
    (1 - f.u) ^ 5 * sqDist (fun i => a * P i + b * Q i + c * S i) C ≤ (1 + f.u) * R ^ 2 + 6 * f.tiny := by
  obtain ⟨p1, p2, p3⟩ : contains f k s v = some true ∧ contains f k s w = some true ∧ contains f k s x = some true := by
    unfold containsTriangle at h
    cases e : contains f k s v with
    | none => simp [e] at h
    | some b =>
      cases e' : contains f k s w with
      | none => cases b <;> simp [e, e'] at h
      | some b' => cases b <;> cases b' <;> simp_all
  have q1 := C175_sound_partial f hp k s C R hc hr v P hv hg p1
  have q2 := C175_sound_partial f hp k s C R hc hr w Q hw hg p2
  have q3 := C175_sound_partial f hp k s C R hc hr x S hx hg p3
  rcases eq_or_lt_of_le (by linarith : c ≤ 1) with rfl | hlt
  · obtain rfl : a = 0 := by linarith
    obtain rfl : b = 0 := by linarith
    simpa using q3
  · have hn : 0 < 1 - c := by linarith
    have q12 := in_ball (rest f) q1 q2 (t := b / (1 - c)) (by positivity) (by rw [div_le_one hn]; linarith)
    have := in_ball (rest f) q12 q3 hc' (by linarith)
    refine le_trans (le_of_eq ?_) this
    congr 2
    funext i
    have e : 1 - b / (1 - c) = a / (1 - c) := by field_simp; linarith
    simp only [e]
    field_simp

example : containsTriangle binary32 (.three false true true) ⟨.three (num 1) (num 2) (num 3), num 1⟩ (.three (num (3 / 2)) (num (3 / 2)) (num (7 / 2))) (.three (num 1) (num 2) (num 4))
    (.three (num 0) (num 2) (num 3)) = some true := by decide +kernel

/-- A range is accepted if it is not empty and each of its points is accepted. -/
theorem C175_range (f : Format) (k : Store Bool 3) (s : Sphere) (ps : List (Store Number 3)) :
    containsAll f k s ps = some true ↔ ps ≠ [] ∧ ∀ p ∈ ps, contains f k s p = some true := by
  have e : ∀ ps, everyPoint f k s ps = some true ↔ ∀ p ∈ ps, contains f k s p = some true := by
    intro ps
    induction ps with
    | nil => simp [everyPoint]
    | cons p ps ih =>
      simp only [everyPoint, List.mem_cons, forall_eq_or_imp, ← ih]
      cases e : contains f k s p with
      | none => simp
      | some b => cases b <;> simp
  unfold containsAll
  cases ps with
  | nil => simp
  | cons p ps => simpa using e (p :: ps)

example : containsAll binary32 (.three false true true) ⟨.three (num 1) (num 2) (num 3), num 1⟩ [.three (num 1) (num 2) (num 4), .three (num 0) (num 2) (num 3)] = some true ∧
    containsAll binary32 (.three false true true) ⟨.three (num 1) (num 2) (num 3), num 1⟩ [] = some false := by decide +kernel

/-- The centre and the point can be exchanged. -/
theorem C175_symmetric (f : Format) (k : Store Bool 3) (p q : Store Number 3) (r : Number) : contains f k ⟨p, r⟩ q = contains f k ⟨q, r⟩ p := by
  cases p with
  | three a b c =>
    cases q with
    | three x y z =>
      cases k with
      | three k1 k2 k3 =>
        unfold contains
        simp only [dist3]
        rw [product_swap f x a, product_swap f y b, product_swap f z c]

/-- A sphere with the same centre and a larger radius contains what the smaller one contains, whatever is rounded or overflows. -/
theorem C175_monotone (f : Format) (hp : 1 ≤ f.p) (hg : 0 ≤ f.greatest) (k : Store Bool 3) (p q : Store Number 3) (r r' : Number) (R R' : ℚ) (hr : value r = some R)
    (hr' : value r' = some R') (h0 : 0 ≤ R) (h : R ≤ R') (hc : contains f k ⟨p, r⟩ q = some true) : contains f k ⟨p, r'⟩ q = some true := by
  unfold contains at hc ⊢
  cases hd : Model.FloatLength.distanceSquared f k p q with
  | none => simp [hd] at hc
  | some d =>
    simp only [hd, Option.map_some, Option.some.injEq] at hc ⊢
    refine atLeast_trans ?_ hc
    exact out_le hp hg (out hp hg (value_mul hr hr) fun s a => square_mag s a) (out hp hg (value_mul hr' hr') fun s a => square_mag s a) (mul_le_mul h h h0 (h0.trans h))

/-- The centre is contained. -/
theorem C175_center (f : Format) (hp : 1 ≤ f.p) (hg : 0 ≤ f.greatest) (k : Store Bool 3) (s : Sphere) (C : Fin 3 → ℚ) (R : ℚ) (hc : Are (parts s.center) [C 0, C 1, C 2])
    (hr : value s.radius = some R) : contains f k s s.center = some true := by
  obtain ⟨c, r⟩ := s
  cases c with
  | three x y z =>
    cases k with
    | three k1 k2 k3 =>
      simp only [Are, parts, List.map_cons, List.map_nil, List.cons.injEq, and_true] at hc
      unfold contains
      simp only [dist3, Option.map_some, Option.some.injEq, product_self hp hg _ hc.1, product_self hp hg _ hc.2.1, product_self hp hg _ hc.2.2]
      rw [zero_add' hp hg, zero_add' hp hg]
      exact atMost_high_low (q := 0) ⟨0, rfl, le_rfl, le_rfl⟩ (low_nonneg hp hg hr) le_rfl

/-- Of points with integer coordinates, and a radius that is an integer, the answer is exact, if the squares are not above the number with one bit more than the significant ones. -/
theorem C175_integers (f : Format) (hp : 1 ≤ f.p) (he : f.emin - f.p + 1 ≤ 0) (hg : 2 ^ f.p ≤ f.greatest) (k : Store Bool 3) (s : Sphere) (C P : Fin 3 → ℤ) (R : ℤ)
    (hc : IsPoint f s.center (fun i => C i)) (hr : value s.radius = some (R : ℚ)) (v : Store Number 3) (hv : IsPoint f v (fun i => P i))
    (h1 : ∑ i, (P i - C i) ^ 2 ≤ 2 ^ f.p) (h2 : R ^ 2 ≤ 2 ^ f.p) : contains f k s v = some (decide (∑ i, (P i - C i) ^ 2 ≤ R ^ 2)) := by
  obtain ⟨c, r⟩ := s
  obtain ⟨a, b, d, rfl, -, -, -, va, vb, vc⟩ := hc.point.elim
  obtain ⟨a', b', d', rfl, -, -, -, va', vb', vc'⟩ := hv.point.elim
  rw [Fin.sum_univ_three] at h1 ⊢
  cases k with
  | three k1 k2 k3 =>
    have A0 := sq_nonneg (P 0 - C 0)
    have B0 := sq_nonneg (P 1 - C 1)
    have D0 := sq_nonneg (P 2 - C 2)
    have s1 := product_int hp he hg k1 va' va (by linarith)
    have s2 := product_int hp he hg k2 vb' vb (by linarith)
    have s3 := product_int hp he hg k3 vc' vc (by linarith)
    have s4 := add_int hp he hg s1 s2 (by rw [abs_of_nonneg (by linarith)]; linarith)
    have s5 := add_int hp he hg s4 s3 (by rw [abs_of_nonneg (by linarith)]; linarith)
    have s6 : value (Op.mul.eval f r r) = some ((R ^ 2 : ℤ) : ℚ) :=
      round_int hp he hg (by rw [value_mul hr hr]; congr 1; push_cast; ring) (by rw [abs_of_nonneg (sq_nonneg R)]; exact h2)
    unfold contains
    simp only [dist3, Option.map_some, Option.some.injEq]
    rw [Bool.eq_iff_iff, decide_eq_true_iff]
    refine (atLeast_values s6 s5).trans ?_
    exact_mod_cast Iff.rfl

example : contains binary32 (.three true false false) ⟨.three (num 1) (num 2) (num 3), num 7⟩ (.three (num 3) (num 5) (num (-3))) = some true ∧
    contains binary32 (.three true false false) ⟨.three (num 1) (num 2) (num 3), num 6⟩ (.three (num 3) (num 5) (num (-3))) = some false ∧
    (24 : ℕ) = binary32.p ∧ binary32.emin - binary32.p + 1 ≤ 0 ∧ 2 ^ binary32.p ≤ binary32.greatest := by decide +kernel

/-- The corners that the box reports are finite numbers. -/
def FiniteCorners (f : Format) (b : Model.FloatBox.Box) : Prop := ∃ lo hi, Values (Model.FloatBox.minCorner f b) lo ∧ Values (Model.FloatBox.maxCorner f b) hi

/-- The test of a box and a sphere is the test of the sphere and the closest point. -/
theorem box_closest {f : Format} (hp : 1 ≤ f.p) (k : Store Bool 3) {b : Model.FloatBox.Box} {C E : Fin 3 → ℚ} (hb : BoxOf f b C E) (hE : NonEmpty E) {s : Sphere}
    {S : Fin 3 → ℚ} (hc : IsPoint f s.center S) (hl : FiniteCorners f b) :
    ∃ q Q, IsPoint f q Q ∧ intersectsBox f k b s = contains f k s q ∧ Inside C (fun i => E i + margin f C E i) Q ∧
      ∀ W, Inside C (fun i => E i - margin f C E i) W → sqDist Q S ≤ sqDist W S := by
  obtain ⟨lo, hi, hlo, hhi⟩ := hl
  have hg := hb.greatest
  obtain ⟨c, r⟩ := s
  obtain ⟨x, y, z, rfl, hx, hy, hz, vx, vy, vz⟩ := hc.point.elim
  have hv : Values (components (.three x y z)) S := by
    intro i; fin_cases i
    · exact vx
    · exact vy
    · exact vz
  have hf : Verif.Props.FloatBox.Of f (components (.three x y z)) := by
    intro i; fin_cases i
    · exact hx
    · exact hy
    · exact hz
  obtain ⟨-, h⟩ := Verif.Props.FloatBox.C166_closest f hp b C E hb hE (components (.three x y z)) S hf hv
  obtain ⟨Q, q1, q2, q3, -⟩ := h lo hi hlo hhi
  set q := Model.FloatBox.closestPoint f b (components (.three x y z)) with hq
  have has : ∀ i, f.Has (q i) := by
    intro i
    have h1 : f.Has (Model.FloatBox.minCorner f b i) := Proofs.Approx.round_is hp fun _ _ => add_mag
    have h2 : f.Has (Model.FloatBox.maxCorner f b i) := Proofs.Approx.round_is hp fun _ _ => add_mag
    rw [hq]
    show f.Has (if _ then Model.FloatBox.minCorner f b i else if _ then Model.FloatBox.maxCorner f b i else _)
    split_ifs
    · exact h1
    · exact h2
    · exact hf i
  have corner : ∀ i, |lo i - (C i - E i)| ≤ margin f C E i ∧ |hi i - (C i + E i)| ≤ margin f C E i := by
    intro i
    obtain ⟨k1, k2⟩ := corner_err (hb.1 i) (hb.2.1 i) (hb.2.2.1 i) (hb.2.2.2 i) (hE i)
    rw [← out_finite (out_max hp hg hb.2.2.1 hb.2.2.2 i) (hhi i)] at k1
    rw [← out_finite (out_min hp hg hb.2.2.1 hb.2.2.2 i) (hlo i)] at k2
    exact ⟨k2, k1⟩
  refine ⟨.three (q 0) (q 1) (q 2), Q, ⟨?_, ?_⟩, C175_symmetric f k _ _ r, ?_, ?_⟩
  · intro a ha
    simp only [parts, List.mem_cons, List.not_mem_nil, or_false] at ha
    rcases ha with rfl | rfl | rfl <;> exact has _
  · simp only [Are, parts, List.map_cons, List.map_nil, q1 0, q1 1, q1 2]
  · intro i
    obtain ⟨c1, c2⟩ := corner i
    rw [abs_le] at c1 c2
    have := q2 i
    constructor <;> linarith
  · intro W hW
    unfold sqDist
    refine Finset.sum_le_sum fun i _ => ?_
    rw [sq_le_sq]
    refine q3 W (fun i => ?_) i
    obtain ⟨c1, c2⟩ := corner i
    rw [abs_le] at c1 c2
    have := hW i
    constructor <;> linarith

/-- If a box and a sphere intersect, the sphere, a little larger, has a point of the box, a little larger: by the rounding of its corners. The corners and the square of the radius must
not overflow. -/
theorem C175_box_partial (f : Format) (hp : 1 ≤ f.p) (k : Store Bool 3) (b : Model.FloatBox.Box) (C E : Fin 3 → ℚ) (hb : BoxOf f b C E) (hE : NonEmpty E) (s : Sphere)
    (S : Fin 3 → ℚ) (R : ℚ) (hc : IsPoint f s.center S) (hr : value s.radius = some R) (hl : FiniteCorners f b) (hg : (1 + f.u) * R ^ 2 + f.tiny ≤ f.greatest)
    (h : intersectsBox f k b s = some true) :
    ∃ Q, Inside C (fun i => E i + margin f C E i) Q ∧ (1 - f.u) ^ 5 * sqDist Q S ≤ (1 + f.u) * R ^ 2 + 6 * f.tiny := by
  obtain ⟨q, Q, h1, h2, h3, -⟩ := box_closest hp k hb hE hc hl
  exact ⟨Q, h3, C175_sound_partial f hp k s S R hc hr q Q h1 hg (h2 ▸ h)⟩

/-- A box and a sphere intersect if the sphere, a little smaller, has a point of the box, a little smaller by the rounding of its corners. -/
theorem C175_box_complete (f : Format) (hp : 1 ≤ f.p) (h2 : 2 ≤ f.greatest) (k : Store Bool 3) (b : Model.FloatBox.Box) (C E : Fin 3 → ℚ) (hb : BoxOf f b C E)
    (hE : NonEmpty E) (s : Sphere) (S : Fin 3 → ℚ) (R : ℚ) (hc : IsPoint f s.center S) (hr : value s.radius = some R) (hl : FiniteCorners f b)
    (h : ∃ Q, Inside C (fun i => E i - margin f C E i) Q ∧ (1 + f.u) ^ 5 * sqDist Q S + 6 * (1 + f.u) ^ 2 * f.tiny ≤ (1 - f.u) * R ^ 2) :
    intersectsBox f k b s = some true := by
  obtain ⟨W, w1, w2⟩ := h
  obtain ⟨q, Q, h1, h3, -, h4⟩ := box_closest hp k hb hE hc hl
  rw [h3]
  refine C175_complete f hp h2 k s S R hc hr q Q h1 (le_trans ?_ w2)
  have : 0 ≤ (1 + f.u) ^ 5 := by have := one_le f 5; linarith
  have := mul_le_mul_of_nonneg_left (h4 W w1) this
  linarith

example : intersectsBox binary32 (.three false true true) ⟨![num 1, num 2, num 3], ![num 1, num 1, num 1]⟩ ⟨.three (num 3) (num 4) (num 3), num (3 / 2)⟩ = some true ∧
    intersectsBox binary32 (.three false true true) ⟨![num 1, num 2, num 3], ![num 1, num 1, num 1]⟩ ⟨.three (num 3) (num 4) (num 3), num 1⟩ = some false := by
  decide +kernel

end Verif.Props.FloatSphere
