import Verif.Proofs.FloatSpheres
import Verif.Props.FloatSphere
/-!
# C189: pairs of bounding spheres of floating-point numbers
-/
namespace Verif.Props.FloatSpheres
open Verif.Spec.IeeeArith Verif.Spec.FloatFormat Verif.Model.VectorStore Verif.Model.FloatVector Verif.Model.FloatSphere
open Verif.Model.FloatSpheres (intersects square)
open Verif.Proofs.FloatVector Verif.Proofs.FloatSphere Verif.Proofs.FloatBox Verif.Proofs.FloatSpheres
open Verif.Props.FloatVector (num)
open Verif.Props.FloatSphere (IsPoint sqDist)

theorem sq_eq (P Q : Fin 3 → ℚ) : (P 0 - Q 0) ^ 2 + (P 1 - Q 1) ^ 2 + (P 2 - Q 2) ^ 2 = sqDist P Q := by unfold sqDist; rw [Fin.sum_univ_three]

/-- C189: two spheres that `intersects` accepts have centres whose squared distance is at most the sum of the squared radii, but for a relative error of a few units of round-off and a
few of the least numbers. -/
theorem C189_sound (f : Format) (hp : 1 ≤ f.p) (k : Store Bool 3) (c : Bool × Bool) (a b : Sphere) (A B : Fin 3 → ℚ) (R S : ℚ) (ha : IsPoint f a.center A)
    (hb : IsPoint f b.center B) (hr : value a.radius = some R) (hs : value b.radius = some S)
    (hg : (1 + f.u) * ((1 + f.u) * (R ^ 2 + S ^ 2) + 2 * f.tiny) + f.tiny ≤ f.greatest) (h : intersects f k c a b = some true) :
    (1 - f.u) ^ 5 * sqDist A B ≤ (1 + f.u) * ((1 + f.u) * (R ^ 2 + S ^ 2) + 2 * f.tiny) + 6 * f.tiny := by
  obtain ⟨d, h1, h2⟩ := low_dist hp k hb.point ha.point
  rw [dist_swap] at h1
  unfold intersects at h
  rw [h1, Option.map_some, Option.some.injEq] at h
  have := atMost_low_high h2 (high_sum hp hr hs c hg) h
  rw [sq_eq] at this
  linarith

/-- C189: two spheres whose centres' squared distance is below the sum of the squared radii by a few units of round-off and a few of the least numbers are accepted, even if the sum
overflows. -/
theorem C189_found_partial (f : Format) (hp : 1 ≤ f.p) (h2 : 2 ≤ f.greatest) (k : Store Bool 3) (c : Bool × Bool) (a b : Sphere) (A B : Fin 3 → ℚ) (R S : ℚ)
    (ha : IsPoint f a.center A) (hb : IsPoint f b.center B) (hr : value a.radius = some R) (hs : value b.radius = some S)
    (hg : (1 + f.u) ^ 5 * sqDist A B + 5 * (1 + f.u) ^ 2 * f.tiny ≤ f.greatest)
    (h : (1 + f.u) ^ 5 * sqDist A B + 5 * (1 + f.u) ^ 2 * f.tiny ≤ (1 - f.u) * ((1 - f.u) * (R ^ 2 + S ^ 2) - 2 * f.tiny) - f.tiny) : intersects f k c a b = some true := by
  obtain ⟨d, e1, e2⟩ := high_dist hp h2 k hb.point ha.point (by rw [sq_eq]; exact hg)
  rw [dist_swap] at e1
  unfold intersects
  rw [e1, Option.map_some, Option.some.injEq]
  rw [sq_eq] at e2
  exact atMost_high_low e2 (low_sum hp (by linarith) hr hs c) h

/-- C189: two spheres that `intersects` accepts have a point in common, if their radii are not so different that rounding can hide twice their product. -/
theorem C189_common (f : Format) (hp : 1 ≤ f.p) (k : Store Bool 3) (c : Bool × Bool) (a b : Sphere) (A B : Fin 3 → ℚ) (R S : ℚ) (ha : IsPoint f a.center A)
    (hb : IsPoint f b.center B) (hr : value a.radius = some R) (hs : value b.radius = some S) (R0 : 0 ≤ R) (S0 : 0 ≤ S)
    (hg : (1 + f.u) * ((1 + f.u) * (R ^ 2 + S ^ 2) + 2 * f.tiny) + f.tiny ≤ f.greatest)
    (hm : (1 + f.u) * ((1 + f.u) * (R ^ 2 + S ^ 2) + 2 * f.tiny) + 6 * f.tiny ≤ (1 - f.u) ^ 5 * (R + S) ^ 2) (h : intersects f k c a b = some true) :
    ∃ X, sqDist X A ≤ R ^ 2 ∧ sqDist X B ≤ S ^ 2 := by
  have hd := (C189_sound f hp k c a b A B R S ha hb hr hs hg h).trans hm
  have hu := u_pos f
  have ht := tiny_pos f
  have u1 := Verif.Proofs.FloatSphere.u_le_one f
  have pos : 0 < (1 - f.u) ^ 5 * (R + S) ^ 2 := by
    refine lt_of_lt_of_le ?_ hm
    positivity
  have p5 : 0 < (1 - f.u) ^ 5 := by
    refine lt_of_le_of_ne (pow_nonneg (by linarith) 5) fun e => ?_
    rw [← e, zero_mul] at pos
    exact lt_irrefl _ pos
  have D : sqDist A B ≤ (R + S) ^ 2 := le_of_mul_le_mul_left hd p5
  have sum : 0 < R + S := by
    refine lt_of_le_of_ne (by linarith) fun e => ?_
    rw [← e] at pos
    simp at pos
  have part : ∀ T : ℚ, (T / (R + S)) ^ 2 * sqDist A B ≤ T ^ 2 := by
    intro T
    calc (T / (R + S)) ^ 2 * sqDist A B ≤ (T / (R + S)) ^ 2 * (R + S) ^ 2 := mul_le_mul_of_nonneg_left D (sq_nonneg _)
      _ = T ^ 2 := by rw [← mul_pow, div_mul_cancel₀ T sum.ne']
  refine ⟨fun i => A i + R / (R + S) * (B i - A i), ?_, ?_⟩
  · refine le_trans (le_of_eq ?_) (part R)
    unfold sqDist
    rw [Finset.mul_sum]
    exact Finset.sum_congr rfl fun i _ => by ring
  · refine le_trans (le_of_eq ?_) (part S)
    unfold sqDist
    rw [Finset.mul_sum]
    refine Finset.sum_congr rfl fun i _ => ?_
    have : R / (R + S) = 1 - S / (R + S) := by field_simp; ring
    rw [this]
    ring

/-- C189: two spheres intersect in either order, if the squares are contracted accordingly. -/
theorem C189_symmetric (f : Format) (k : Store Bool 3) (c d : Bool) (a b : Sphere) : intersects f k (c, d) a b = intersects f k (d, c) b a := by
  unfold intersects
  rw [dist_swap, add_swap]

/-- C189: a sphere intersects itself and contains itself, if the square of its radius does not overflow. -/
theorem C189_self (f : Format) (hp : 1 ≤ f.p) (k : Store Bool 3) (c : Bool × Bool) (e : Bool) (s : Sphere) (C : Fin 3 → ℚ) (R : ℚ) (hc : IsPoint f s.center C)
    (hr : value s.radius = some R) (hg : (1 + f.u) * R ^ 2 + f.tiny ≤ f.greatest) :
    intersects f k c s s = some true ∧ Model.FloatSpheres.contains f k c e s s = some true := by
  have hu := u_pos f
  have ht := tiny_pos f
  have g0 : 0 ≤ f.greatest := le_trans (by positivity) hg
  have low : Low (Op.add.eval f (square f s.radius c.1) (square f s.radius c.2)) 0 := by
    rcases low_sum hp g0 hr hr c with h | ⟨X, h1, h2, -, h4⟩
    · exact .inl h
    · exact .inr ⟨X, h1, h2, h2, h4⟩
  have le := atMost_high_low (x := .fin false 0) (p := 0) ⟨0, by simp [value, signed], le_rfl, le_rfl⟩ low le_rfl
  unfold intersects Model.FloatSpheres.contains
  rw [dist_self hp g0 k hc.point, Option.map_some, Option.map_some, Option.some.injEq, Option.some.injEq]
  refine ⟨le, ?_⟩
  rw [not_less le, if_neg (by simp)]
  obtain ⟨X, h1, h2⟩ := zero_square hp hr hg e
  exact (atLeast_values h1 h2).2 le_rfl

/-- C189: a sphere that is inside another by a few units of round-off and a few of the least numbers is contained, if the square of the outer radius is in range. -/
theorem C189_inside (f : Format) (hp : 1 ≤ f.p) (h2 : 2 ≤ f.greatest) (k : Store Bool 3) (c : Bool × Bool) (e : Bool) (a b : Sphere) (A B : Fin 3 → ℚ) (R S : ℚ)
    (ha : IsPoint f a.center A) (hb : IsPoint f b.center B) (hr : value a.radius = some R) (hs : value b.radius = some S) (hg : R ^ 2 ≤ f.greatest)
    (h : (1 + f.u) * ((1 + f.u) ^ 5 * sqDist A B + 5 * (1 + f.u) ^ 2 * f.tiny + ((1 + f.u) * S ^ 2 + f.tiny)) + f.tiny ≤
      (1 - f.u) * ((1 - f.u) * R ^ 2 - 2 * f.tiny) - f.tiny) : Model.FloatSpheres.contains f k c e a b = some true := by
  have hu := u_pos f
  have ht := tiny_pos f
  have u1 : 0 ≤ 1 - f.u := by linarith [Verif.Proofs.FloatSphere.u_le_one f]
  have D0 : 0 ≤ sqDist A B := Finset.sum_nonneg fun i _ => sq_nonneg _
  have R2 : 0 ≤ R ^ 2 := sq_nonneg R
  have S2 : 0 ≤ S ^ 2 := sq_nonneg S
  have first : (1 - f.u) * ((1 - f.u) * R ^ 2) ≤ (1 - f.u) * R ^ 2 := mul_le_mul_of_nonneg_left (by linarith [mul_nonneg hu.le R2]) u1
  have second : (1 - f.u) * R ^ 2 ≤ R ^ 2 := by linarith [mul_nonneg hu.le R2]
  have small : 0 ≤ (1 - f.u) * (2 * f.tiny) := by positivity
  have d0 : 0 ≤ (1 + f.u) ^ 5 * sqDist A B + 5 * (1 + f.u) ^ 2 * f.tiny := by positivity
  have s0 : 0 ≤ (1 + f.u) * S ^ 2 + f.tiny := by positivity
  have both := mul_nonneg hu.le (add_nonneg d0 s0)
  obtain ⟨d, e1, e2⟩ := high_dist hp h2 k hb.point ha.point (by rw [sq_eq]; linarith)
  rw [dist_swap] at e1
  rw [sq_eq] at e2
  unfold Model.FloatSpheres.contains
  rw [e1, Option.map_some, Option.some.injEq]
  have low := low_sum hp (by linarith) hr hs c
  have more : (1 - f.u) * ((1 - f.u) * R ^ 2) ≤ (1 - f.u) * ((1 - f.u) * (R ^ 2 + S ^ 2)) :=
    mul_le_mul_of_nonneg_left (mul_le_mul_of_nonneg_left (by linarith) u1) u1
  rw [not_less (atMost_high_low e2 low (by linarith)), if_neg (by simp)]
  have hi := (e2.add (high_sq hp hs (by linarith) e)).round hp (by linarith)
  exact atMost_high_low hi (low_sq hp (by linarith) hr false) (by linarith)

/-- C189: of a sphere that is contained, the squared radius and the squared distance of the centres add up to at most the square of the outer radius, but for rounding. -/
theorem C189_contained_partial (f : Format) (hp : 1 ≤ f.p) (k : Store Bool 3) (c : Bool × Bool) (e : Bool) (a b : Sphere) (A B : Fin 3 → ℚ) (R S : ℚ)
    (ha : IsPoint f a.center A) (hb : IsPoint f b.center B) (hr : value a.radius = some R) (hs : value b.radius = some S) (hg : (1 + f.u) * R ^ 2 + f.tiny ≤ f.greatest)
    (h : Model.FloatSpheres.contains f k c e a b = some true) :
    (1 - f.u) * ((1 - f.u) ^ 5 * sqDist A B - 5 * f.tiny + ((1 - f.u) * S ^ 2 - f.tiny)) ≤ (1 + f.u) * R ^ 2 + 2 * f.tiny := by
  have g0 : 0 ≤ f.greatest := by
    have := tiny_pos f
    have hu := u_pos f
    exact le_trans (by positivity) hg
  obtain ⟨d, h1, h2⟩ := low_dist hp k hb.point ha.point
  rw [dist_swap] at h1
  rw [sq_eq] at h2
  unfold Model.FloatSpheres.contains at h
  rw [h1, Option.map_some, Option.some.injEq] at h
  split at h
  · simp at h
  · have lo := (h2.add (low_sq hp g0 hs e)).round hp g0
    have := atMost_low_high lo (high_sq hp hr hg false) h
    linarith

/-- C189: of spheres whose centres and radii are integers, the answers are exactly those about the sums of squares, if these are not above the number with one bit more than the
significant ones. -/
theorem C189_integers (f : Format) (hp : 1 ≤ f.p) (he : f.emin - f.p + 1 ≤ 0) (hg : 2 ^ f.p ≤ f.greatest) (k : Store Bool 3) (c : Bool × Bool) (e : Bool) (a b : Sphere)
    (A B : Fin 3 → ℤ) (R S : ℤ) (ha : IsPoint f a.center (fun i => A i)) (hb : IsPoint f b.center (fun i => B i)) (hr : value a.radius = some (R : ℚ))
    (hs : value b.radius = some (S : ℚ)) (h1 : R ^ 2 + S ^ 2 ≤ 2 ^ f.p) (h2 : ∑ i, (B i - A i) ^ 2 + S ^ 2 ≤ 2 ^ f.p) :
    intersects f k c a b = some (decide (∑ i, (B i - A i) ^ 2 ≤ R ^ 2 + S ^ 2)) ∧
      Model.FloatSpheres.contains f k c e a b = some (decide (∑ i, (B i - A i) ^ 2 + S ^ 2 ≤ R ^ 2)) := by
  have R0 := sq_nonneg R
  have S0 := sq_nonneg S
  have D0 : 0 ≤ ∑ i, (B i - A i) ^ 2 := Finset.sum_nonneg fun i _ => sq_nonneg _
  obtain ⟨d, d1, d2⟩ := dist_int hp he hg k ha.point hb.point (by linarith)
  have sum := add_int hp he hg (square_int hp he hg c.1 hr (by linarith)) (square_int hp he hg c.2 hs (by linarith)) (by rw [abs_of_nonneg (by linarith)]; exact h1)
  have most := add_int hp he hg d2 (square_int hp he hg e hs (by linarith)) (by rw [abs_of_nonneg (by linarith)]; exact h2)
  have out := square_int hp he hg false hr (by linarith)
  unfold intersects Model.FloatSpheres.contains
  rw [d1, Option.map_some, Option.map_some, Option.some.injEq, Option.some.injEq]
  refine ⟨by rw [Bool.eq_iff_iff, decide_eq_true_iff]; exact (atLeast_values sum d2).trans (by exact_mod_cast Iff.rfl), ?_⟩
  rw [Bool.eq_iff_iff, decide_eq_true_iff]
  by_cases h : ∑ i, (B i - A i) ^ 2 ≤ R ^ 2 + S ^ 2
  · rw [not_less ((atLeast_values sum d2).2 (by exact_mod_cast h)), if_neg (by simp)]
    exact (atLeast_values out most).trans (by exact_mod_cast Iff.rfl)
  · have less : Model.Kahan.less (Op.add.eval f (square f a.radius c.1) (square f b.radius c.2)) d = true := by
      rw [less_values sum d2]
      exact_mod_cast not_le.1 h
    rw [less, if_pos rfl]
    simp only [Bool.false_eq_true, false_iff, not_le]
    linarith

/-- C189 is violated by spheres that overlap by less than their radii allow: of two with radii 3 and 4, at distance 6, `intersects` says that they do not, though a point is inside of
both. -/
theorem C189_apart_violated : intersects binary32 (.three false false false) (false, false) ⟨.three (num 0) (num 0) (num 0), num 3⟩ ⟨.three (num 6) (num 0) (num 0), num 4⟩ = some false ∧
    sqDist ![5 / 2, 0, 0] ![0, 0, 0] < 3 ^ 2 ∧ sqDist ![5 / 2, 0, 0] ![6, 0, 0] < 4 ^ 2 := by
  refine ⟨by decide +kernel, by decide +kernel, by decide +kernel⟩

/-- C189 is violated by spheres that stick out: the one with radius 4 at distance 3 is said to be contained in the one with radius 5, though a point of it is outside. -/
theorem C189_out_violated :
    Model.FloatSpheres.contains binary32 (.three false false false) (false, false) false ⟨.three (num 0) (num 0) (num 0), num 5⟩ ⟨.three (num 3) (num 0) (num 0), num 4⟩ = some true ∧
    sqDist ![7, 0, 0] ![3, 0, 0] ≤ 4 ^ 2 ∧ 5 ^ 2 < sqDist ![7, 0, 0] ![0, 0, 0] := by
  refine ⟨by decide +kernel, by decide +kernel, by decide +kernel⟩

/-- C189 is violated by small spheres: two whose radii are a sixteenth of their distance intersect, because the squares underflow. -/
theorem C189_small_violated : intersects binary32 (.three false false false) (false, false) ⟨.three (num 0) (num 0) (num 0), num (2 ^ (-84 : ℤ))⟩
    ⟨.three (num (2 ^ (-80 : ℤ))) (num 0) (num 0), num (2 ^ (-84 : ℤ))⟩ = some true := by decide +kernel

/-- Spheres of radii 3 and 4 at distance 4, and ones of radii 8 and 2 at distance 3, meet the hypotheses. -/
example : IsPoint binary32 (.three (num 4) (num 0) (num 0)) ![4, 0, 0] ∧
    (1 + binary32.u) * ((1 + binary32.u) * (3 ^ 2 + 4 ^ 2) + 2 * binary32.tiny) + binary32.tiny ≤ binary32.greatest ∧
    (1 + binary32.u) * ((1 + binary32.u) * (3 ^ 2 + 4 ^ 2) + 2 * binary32.tiny) + 6 * binary32.tiny ≤ (1 - binary32.u) ^ 5 * (3 + 4) ^ 2 ∧
    (1 + binary32.u) ^ 5 * sqDist ![0, 0, 0] ![4, 0, 0] + 5 * (1 + binary32.u) ^ 2 * binary32.tiny ≤
      (1 - binary32.u) * ((1 - binary32.u) * (3 ^ 2 + 4 ^ 2) - 2 * binary32.tiny) - binary32.tiny ∧
    (1 + binary32.u) * ((1 + binary32.u) ^ 5 * sqDist ![0, 0, 0] ![3, 0, 0] + 5 * (1 + binary32.u) ^ 2 * binary32.tiny + ((1 + binary32.u) * 2 ^ 2 + binary32.tiny)) + binary32.tiny ≤
      (1 - binary32.u) * ((1 - binary32.u) * 8 ^ 2 - 2 * binary32.tiny) - binary32.tiny ∧
    intersects binary32 (.three false false false) (false, false) ⟨.three (num 0) (num 0) (num 0), num 3⟩ ⟨.three (num 4) (num 0) (num 0), num 4⟩ = some true ∧
    Model.FloatSpheres.contains binary32 (.three false false false) (false, false) false ⟨.three (num 0) (num 0) (num 0), num 8⟩ ⟨.three (num 3) (num 0) (num 0), num 2⟩ = some true ∧
    Model.FloatSpheres.contains binary32 (.three false false false) (false, false) false ⟨.three (num 0) (num 0) (num 0), num 2⟩ ⟨.three (num 3) (num 0) (num 0), num 8⟩ = some false := by
  refine ⟨⟨?_, by decide +kernel⟩, by decide +kernel, by decide +kernel, by decide +kernel, by decide +kernel, by decide +kernel, by decide +kernel, by decide +kernel⟩
  intro a ha
  simp only [parts, List.mem_cons, List.not_mem_nil, or_false] at ha
  rcases ha with rfl | rfl | rfl
  · exact ⟨⟨4, 0, by decide, by decide, by norm_num⟩, by decide +kernel⟩
  · exact ⟨⟨0, 0, by decide, by decide, by norm_num⟩, by decide +kernel⟩
  · exact ⟨⟨0, 0, by decide, by decide, by norm_num⟩, by decide +kernel⟩

example : (3 : ℤ) ^ 2 + 4 ^ 2 ≤ 2 ^ binary32.p ∧ ∑ i, ((![4, 0, 0] : Fin 3 → ℤ) i - (![0, 0, 0] : Fin 3 → ℤ) i) ^ 2 + 4 ^ 2 ≤ 2 ^ binary32.p ∧ binary32.emin - binary32.p + 1 ≤ 0 ∧
    2 ^ binary32.p ≤ binary32.greatest := by decide +kernel

end Verif.Props.FloatSpheres
