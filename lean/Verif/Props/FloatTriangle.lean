import Verif.Proofs.FloatTriangle
import Verif.Props.FloatRay
import Mathlib.Tactic.NormNum
/-!
# C184: triangles of floating-point numbers
-/
namespace Verif.Props.FloatTriangle
open Verif.Spec.IeeeArith Verif.Spec.FloatFormat Verif.Spec.FloatSqrt Verif.Spec.Representable Verif.Spec.RayRounding Verif.Spec.TriangleRounding
open Verif.Model.VectorStore hiding construct
open Verif.Model.FloatVector Verif.Model.FloatProducts Verif.Model.FloatTriangle
open Verif.Model.FloatRay (Ray defaultEpsilon)
open Verif.Proofs.FloatVector Verif.Proofs.FloatProducts Verif.Proofs.FloatError Verif.Proofs.FloatPlane Verif.Proofs.FloatTriangle
open Verif.Props.FloatCross (are3)
open Verif.Props.FloatVector (num)
open Verif.Props.FloatPlane (has32 plain)

/-- C184: each coordinate of the centroid is the mean of the corners' but for four roundings, if nothing overflows. -/
theorem C184_centroid (f : Format) (hf : Usual f) (p0 p1 p2 : Store Number 3) (A B C : Fin 3 → ℚ) (hA : IsVec p0 A) (hB : IsVec p1 B) (hC : IsVec p2 C)
    (hg : ∀ i, (1 + f.u) ^ 4 * ((|A i| + |B i| + |C i|) + (|A i| + |B i| + |C i| + 3) * f.tiny) ≤ f.greatest) :
    ∃ x X, centroid f p0 p1 p2 = some x ∧ IsVec x X ∧ ∀ i, |X i - (A i + B i + C i) / 3| ≤
      ((1 + f.u) ^ 4 - 1) * ((|A i| + |B i| + |C i|) / 3) + (1 + f.u) ^ 4 * ((|A i| + |B i| + |C i| + 3) * f.tiny) := by
  obtain ⟨x, y, z, rfl, hx, hy, hz⟩ := are3 hA
  obtain ⟨x', y', z', rfl, hx', hy', hz'⟩ := are3 hB
  obtain ⟨x'', y'', z'', rfl, hx'', hy'', hz''⟩ := are3 hC
  have ht := tiny_pos f
  have ht1 := tiny_le hf
  have four := Verif.Proofs.FloatLength.four_le hf
  have hu8 := Verif.Proofs.FloatLength.u_le hf
  have hu := u_pos f
  have third : Near f 1 (1 / 3) f.tiny (reciprocal f (.fin false 3)) (1 / 3) := by
    have := (Proofs.FloatRay.Near.quotient (Near.exact f (x := .fin false 1) (X := 1) (by simp [value, signed])) (y := .fin false 3) (Y := 3) (by simp [value, signed])
      (by norm_num)).round (by norm_num; nlinarith)
    exact this.mono le_rfl (by norm_num) (by norm_num)
  have one : ∀ (i : Fin 3) (a b c : Number), value a = some (A i) → value b = some (B i) → value c = some (C i) →
      ∃ Z, value (Op.mul.eval f (Op.add.eval f (Op.add.eval f a b) c) (reciprocal f (.fin false 3))) = some Z ∧ |Z - (A i + B i + C i) / 3| ≤
        ((1 + f.u) ^ 4 - 1) * ((|A i| + |B i| + |C i|) / 3) + (1 + f.u) ^ 4 * ((|A i| + |B i| + |C i| + 3) * f.tiny) := by
    intro i a b c ha hb hc
    have g := hg i
    have a0 := abs_nonneg (A i)
    have b0 := abs_nonneg (B i)
    have c0 := abs_nonneg (C i)
    set M := |A i| + |B i| + |C i| with hM
    have M0 : 0 ≤ M := by positivity
    have Mt : 0 ≤ M * f.tiny := by positivity
    have tt : f.tiny * f.tiny ≤ 1 / 128 * f.tiny := mul_le_mul_of_nonneg_right ht1 ht.le
    have total : 0 ≤ M + (M + 3) * f.tiny := by nlinarith
    have s := ((Near.exact f ha).add (Near.exact f hb)).round (grow (l := 4) (by norm_num) (by linarith) total g)
    have s' := (s.add ((Near.exact f hc).mono (k' := 1) (by norm_num) le_rfl le_rfl)).round (grow (l := 4) (by norm_num) (by linarith) total g)
    have q := s'.product third false (grow (l := 4) (by norm_num) (by linarith) total g)
    obtain ⟨Z, q1, -, -, q2⟩ := q.mono (k' := 4) (M' := M / 3) (T' := (M + 3) * f.tiny) (by norm_num) (by linarith) (by linarith)
    refine ⟨Z, q1, ?_⟩
    rw [show (A i + B i + C i) / 3 = (A i + B i + C i) * (1 / 3) by ring]
    exact q2
  obtain ⟨X, e1, f1⟩ := one 0 x x' x'' hx hx' hx''
  obtain ⟨Y, e2, f2⟩ := one 1 y y' y'' hy hy' hy''
  obtain ⟨Z, e3, f3⟩ := one 2 z z' z'' hz hz' hz''
  refine ⟨_, ![X, Y, Z], rfl, ?_, ?_⟩
  · simp [IsVec, Are, parts, e1, e2, e3]
  · intro i
    fin_cases i
    · exact f1
    · exact f2
    · exact f3

/-- C184 is violated by the centroid: where the three corners are the same point of floats, the centroid is another. -/
theorem C184_centroid_violated : binary32.Has (num 5592409) ∧
    centroid binary32 (.three (num 5592409) (num 0) (num 0)) (.three (num 5592409) (num 0) (num 0)) (.three (num 5592409) (num 0) (num 0)) =
      some (.three (num (11184819 / 2)) (num 0) (num 0)) := by
  refine ⟨has32 (m := 5592409) (k := 0) (by norm_num) (by norm_num) (by norm_num) (by decide +kernel), ?_⟩
  have : parts <$> centroid binary32 (.three (num 5592409) (num 0) (num 0)) (.three (num 5592409) (num 0) (num 0)) (.three (num 5592409) (num 0) (num 0)) =
    some [num (11184819 / 2), num 0, num 0] := by decide +kernel
  revert this
  generalize centroid binary32 _ _ _ = o
  cases o with
  | none => intro h; cases h
  | some v =>
    cases v
    intro h
    simp only [Option.map_eq_map, Option.map_some, Option.some.injEq, parts, List.cons.injEq] at h ⊢
    obtain ⟨rfl, rfl, rfl, -⟩ := h
    rfl

theorem perimeter_core {u t a b c α β γ x y : ℝ} (hu : 0 ≤ u) (hu1 : u ≤ 1) (ht : 0 ≤ t) (ha : 0 ≤ α) (hb : 0 ≤ β) (hc : 0 ≤ γ) (b1 : |a - α| ≤ ((1 + u) ^ 7 - 1) * α)
    (b2 : |b - β| ≤ ((1 + u) ^ 7 - 1) * β) (b3 : |c - γ| ≤ ((1 + u) ^ 7 - 1) * γ) (hx : |x - (a + b)| ≤ u * |a + b| + t) (hy : |y - (x + c)| ≤ u * |x + c| + t) :
    |x| ≤ (1 + u) ^ 9 * (α + β + γ) + 3 * t ∧ |y - (α + β + γ)| ≤ ((1 + u) ^ 9 - 1) * (α + β + γ) + 3 * t := by
  have e8 : (1 + u) ^ 8 = (1 + u) ^ 7 + u * (1 + u) ^ 7 := by ring
  have e9 : (1 + u) ^ 9 = (1 + u) ^ 8 + u * (1 + u) ^ 8 := by ring
  set p7 := (1 + u) ^ 7
  set p8 := (1 + u) ^ 8
  have h7 : 1 ≤ p7 := one_le_pow₀ (by linarith)
  have h8 : 1 ≤ p8 := one_le_pow₀ (by linarith)
  have i1 := abs_add_le (a - α) (b - β)
  have s1 : |a + b - (α + β)| ≤ (p7 - 1) * (α + β) := by
    rw [show a + b - (α + β) = a - α + (b - β) by ring]; linarith
  have s2 : |a + b| ≤ p7 * (α + β) := by
    have := abs_add_le (a + b - (α + β)) (α + β)
    rw [sub_add_cancel, abs_of_nonneg (by linarith : 0 ≤ α + β)] at this
    linarith
  have s2' := mul_le_mul_of_nonneg_left s2 hu
  have s3 : |x - (α + β)| ≤ (p8 - 1) * (α + β) + t := by
    have := abs_add_le (x - (a + b)) (a + b - (α + β))
    rw [sub_add_sub_cancel] at this
    rw [e8]
    linarith
  have g1 : 0 ≤ u * p7 * γ := by positivity
  have s4 : |x + c - (α + β + γ)| ≤ (p8 - 1) * (α + β + γ) + t := by
    have := abs_add_le (x - (α + β)) (c - γ)
    rw [show x + c - (α + β + γ) = x - (α + β) + (c - γ) by ring]
    rw [e8] at s3 ⊢
    linarith
  have s5 : |x + c| ≤ p8 * (α + β + γ) + t := by
    have := abs_add_le (x + c - (α + β + γ)) (α + β + γ)
    rw [sub_add_cancel, abs_of_nonneg (by linarith : 0 ≤ α + β + γ)] at this
    linarith
  have s5' := mul_le_mul_of_nonneg_left s5 hu
  have ut : u * t ≤ 1 * t := mul_le_mul_of_nonneg_right hu1 ht
  constructor
  · have := abs_add_le (x - (α + β)) (α + β)
    rw [sub_add_cancel, abs_of_nonneg (by linarith : 0 ≤ α + β)] at this
    have g2 : 0 ≤ p8 * γ := by positivity
    have g3 : 0 ≤ u * p8 * (α + β + γ) := by positivity
    rw [e9]
    linarith
  · have := abs_add_le (y - (x + c)) (x + c - (α + β + γ))
    rw [sub_add_sub_cancel] at this
    rw [e9]
    linarith

/-- C184: the perimeter has a relative error of nine roundings at most, if the squares of the sides are moderate. -/
theorem C184_perimeter (f : Format) (hf : Usual f) (h6 : (1 + f.u) ^ 6 < 2) (k0 k1 k2 : Store Bool 3) (hk0 : Contraction k0) (hk1 : Contraction k1) (hk2 : Contraction k2)
    (p0 p1 p2 : Store Number 3) (A B C : Fin 3 → ℚ) (hA : IsVec p0 A) (hB : IsVec p1 B) (hC : IsVec p2 C) (f0 : ∀ x ∈ parts p0, f.Has x) (f1 : ∀ x ∈ parts p1, f.Has x)
    (f2 : ∀ x ∈ parts p2, f.Has x) (m0 : Moderate f (squared A B)) (m1 : Moderate f (squared B C)) (m2 : Moderate f (squared C A))
    (hg : (1 + f.u) ^ 9 * (√(squared A B : ℝ) + √(squared B C : ℝ) + √(squared C A : ℝ)) + 3 * f.tiny ≤ (f.greatest : ℝ)) :
    ∃ r z, perimeter f k0 k1 k2 p0 p1 p2 = some r ∧ value r = some z ∧ |(z : ℝ) - (√(squared A B : ℝ) + √(squared B C : ℝ) + √(squared C A : ℝ))| ≤
      ((1 + f.u) ^ 9 - 1) * (√(squared A B : ℝ) + √(squared B C : ℝ) + √(squared C A : ℝ)) + 3 * f.tiny := by
  have hu := u_pos f
  have ht := tiny_pos f
  have hu8 := Verif.Proofs.FloatLength.u_le hf
  have side : ∀ (k : Store Bool 3) (v w : Store Number 3) (X Y : Fin 3 → ℚ), Contraction k → IsVec v X → IsVec w Y → (∀ x ∈ parts v, f.Has x) → (∀ x ∈ parts w, f.Has x) →
      Moderate f (squared X Y) → ∃ r z, Model.FloatLength.distance f k v w = some r ∧ value r = some z ∧
        |(z : ℝ) - √(squared X Y : ℝ)| ≤ ((1 + f.u) ^ 7 - 1) * √(squared X Y : ℝ) := by
    intro k v w X Y hk hv hw fv fw hm
    have e : (List.zipWith (fun x y : ℚ => (y - x) ^ 2) [X 0, X 1, X 2] [Y 0, Y 1, Y 2]).sum = squared X Y := by
      unfold squared; rw [Fin.sum_univ_three]; simp [add_assoc]
    have := FloatLength.C150_distance_partial f hf k hk v w [X 0, X 1, X 2] [Y 0, Y 1, Y 2] hv hw fv fw (by push_cast; linarith) h6 (by rw [e]; exact hm.1) (by rw [e]; exact hm.2)
    rw [e] at this
    exact this
  obtain ⟨r1, a, e1, v1, b1⟩ := side k0 p0 p1 A B hk0 hA hB f0 f1 m0
  obtain ⟨r2, b, e2, v2, b2⟩ := side k1 p1 p2 B C hk1 hB hC f1 f2 m1
  obtain ⟨r3, c, e3, v3, b3⟩ := side k2 p2 p0 C A hk2 hC hA f2 f0 m2
  have eA : ∀ z : ℚ, |((rd f z : ℚ) : ℝ) - z| ≤ f.u * |(z : ℝ)| + f.tiny := fun z => by exact_mod_cast err f z
  obtain ⟨c1, c2⟩ := perimeter_core (u := f.u) (t := f.tiny) (by exact_mod_cast hu.le) (by exact_mod_cast (by linarith : f.u ≤ 1)) (by exact_mod_cast ht.le) (Real.sqrt_nonneg _) (Real.sqrt_nonneg _)
    (Real.sqrt_nonneg _) b1 b2 b3 (x := rd f (a + b)) (y := rd f (rd f (a + b) + c)) (by have := eA (a + b); push_cast at this; exact this)
    (by have := eA (rd f (a + b) + c); push_cast at this; exact this)
  have fin1 : |rd f (a + b)| ≤ f.greatest := by
    have := c1.trans hg
    exact_mod_cast this
  have fin2 : |rd f (rd f (a + b) + c)| ≤ f.greatest := by
    have t := abs_add_le (((rd f (rd f (a + b) + c) : ℚ) : ℝ) - (√(squared A B : ℝ) + √(squared B C : ℝ) + √(squared C A : ℝ)))
      (√(squared A B : ℝ) + √(squared B C : ℝ) + √(squared C A : ℝ))
    rw [sub_add_cancel, abs_of_nonneg (by positivity : 0 ≤ √(squared A B : ℝ) + √(squared B C : ℝ) + √(squared C A : ℝ))] at t
    have : |((rd f (rd f (a + b) + c) : ℚ) : ℝ)| ≤ f.greatest := by linarith
    exact_mod_cast this
  refine ⟨_, rd f (rd f (a + b) + c), ?_, value_round f (value_add (value_round f (value_add v1 v2) fin1) v3) fin2, c2⟩
  unfold perimeter
  rw [e1, e2, e3]
  rfl

/-- C184: if a ray hits a triangle, the distance is a number, and the point of the ray there is that close to a point of the triangle (up to the rounding of the sum of the two
weights), if nothing overflows. Which products are contracted does not matter. -/
theorem C184_hit_partial (f : Format) (hf : Usual f) (epsilon : Number) (E : ℚ) (hE : value epsilon = some E) (E0 : 0 < E) (c : HitContraction) (r : Ray)
    (p0 p1 p2 : Store Number 3) (A B C P V : Fin 3 → ℚ) (R S : ℚ) (hA : IsVec p0 A) (hB : IsVec p1 B) (hC : IsVec p2 C) (hP : IsVec r.origin P) (hV : IsVec r.direction V)
    (bA : Within R A) (bB : Within R B) (bC : Within R C) (bP : Within R P) (bV : Within S V) (hg : HitInRange f R S E) (t : Number)
    (h : hitsTriangle f epsilon c r p0 p1 p2 = some (some t)) :
    E - seenSlack f R S ≤ |seen A B C V| ∧ ∃ T U W, value t = some T ∧ 0 ≤ U ∧ 0 ≤ W ∧ (1 - f.u) ^ 2 * (U + W) ≤ 1 + 7 * f.tiny ∧
      ∀ i, |seen A B C V| * |point P V T i - weighted A B C U W i| ≤ hitSlack f R S T := by
  obtain ⟨h', D, n, m, l, e, s1, s2, s3, s4, d1, d2⟩ := summary hf hE E0 c hA hB hC hP hV bA bB bC bP bV hg
  rw [h, Option.some.injEq] at e
  subst e
  have hR : 0 ≤ R := (abs_nonneg _).trans (bA 0)
  have hS : 0 ≤ S := (abs_nonneg _).trans (bV 0)
  have hD : E ≤ |D| := by by_contra hc; cases d1 (not_le.1 hc)
  obtain ⟨U, W, T, q1, q2, q3, q4, -⟩ := d2 hD
  obtain ⟨vt, U0, W0, sum⟩ := q4 t rfl
  have hu8 := Verif.Proofs.FloatLength.u_le hf
  have hu := u_pos f
  have ht := tiny_pos f
  have ht1 := tiny_le hf
  have cap : U + W ≤ 3 := by
    have : (49 / 64 : ℚ) ≤ (1 - f.u) ^ 2 := by nlinarith
    have : 49 / 64 * (U + W) ≤ (1 - f.u) ^ 2 * (U + W) := mul_le_mul_of_nonneg_right this (by linarith)
    linarith
  have l0 : 0 ≤ seenSlack f R S := (abs_nonneg _).trans s1
  have seenD : |seen A B C V - D| ≤ seenSlack f R S := by rw [abs_sub_comm]; exact s1
  refine ⟨?_, T, U, W, vt, U0, W0, sum, fun i => ?_⟩
  · have := abs_add_le (seen A B C V) (D - seen A B C V)
    rw [add_sub_cancel, abs_sub_comm D] at this
    linarith
  -- the residuals of the weights and of the distance
  have res : ∀ {x y b z s : ℚ}, |x * D - y| ≤ b → |y - z| ≤ s → |z - x * seen A B C V| ≤ |x| * seenSlack f R S + b + s := by
    intro x y b z s g1 g2
    have e : z - x * seen A B C V = -(y - z) + (-(x * D - y) + -(x * (seen A B C V - D))) := by ring
    have t1 := abs_add_le (-(y - z)) (-(x * D - y) + -(x * (seen A B C V - D)))
    have t2 := abs_add_le (-(x * D - y)) (-(x * (seen A B C V - D)))
    rw [abs_neg] at t1
    rw [abs_neg, abs_neg, abs_mul] at t2
    have t3 := mul_le_mul_of_nonneg_left seenD (abs_nonneg x)
    rw [e]
    linarith
  have rU := res q1 s2
  have rW := res q2 s3
  have rT := res q3 s4
  rw [abs_of_nonneg U0] at rU
  rw [abs_of_nonneg W0] at rW
  have U3 : U * seenSlack f R S ≤ 3 * seenSlack f R S := mul_le_mul_of_nonneg_right (by linarith) l0
  have W3 : W * seenSlack f R S ≤ 3 * seenSlack f R S := mul_le_mul_of_nonneg_right (by linarith) l0
  have edge : ∀ {X : Fin 3 → ℚ}, Within R X → |(X - A) i| ≤ 2 * R := by
    intro X hX
    have := abs_sub (X i) (A i)
    have := hX i
    have := bA i
    simp only [Pi.sub_apply]
    linarith
  have id : seen A B C V * (point P V T i - weighted A B C U W i) =
      (triple (P - A) V (C - A) - U * seen A B C V) * (B - A) i + (triple V (P - A) (B - A) - W * seen A B C V) * (C - A) i -
        (triple (C - A) (P - A) (B - A) - T * seen A B C V) * V i := by
    have := cramer (B - A) (C - A) V (P - A) i
    simp only [Pi.sub_apply] at this ⊢
    unfold seen point weighted
    linear_combination this
  rw [← abs_mul, id]
  have t1 := abs_sub ((triple (P - A) V (C - A) - U * seen A B C V) * (B - A) i + (triple V (P - A) (B - A) - W * seen A B C V) * (C - A) i)
    ((triple (C - A) (P - A) (B - A) - T * seen A B C V) * V i)
  have t2 := abs_add_le ((triple (P - A) V (C - A) - U * seen A B C V) * (B - A) i) ((triple V (P - A) (B - A) - W * seen A B C V) * (C - A) i)
  rw [abs_mul, abs_mul] at t2
  rw [abs_mul _ (V i)] at t1
  have u1 := mul_le_mul (rU.trans (by linarith : _ ≤ 4 * seenSlack f R S + divisionSlack f (seenMost f R S) (seenMost f R S))) (edge bB) (abs_nonneg _)
    ((abs_nonneg _).trans (rU.trans (by linarith)))
  have u2 := mul_le_mul (rW.trans (by linarith : _ ≤ 4 * seenSlack f R S + divisionSlack f (seenMost f R S) (seenMost f R S))) (edge bC) (abs_nonneg _)
    ((abs_nonneg _).trans (rW.trans (by linarith)))
  have u3 := mul_le_mul rT (bV i) (abs_nonneg _) ((abs_nonneg _).trans rT)
  unfold hitSlack
  linarith

/-- C184: a ray that clearly goes through a triangle hits it, at about the right distance: `T` is where it meets the triangle's plane, at the point of weights `U`, `W` and
`1 - U - W`. -/
theorem C184_found (f : Format) (hf : Usual f) (epsilon : Number) (E : ℚ) (hE : value epsilon = some E) (E0 : 0 < E) (c : HitContraction) (r : Ray)
    (p0 p1 p2 : Store Number 3) (A B C P V : Fin 3 → ℚ) (R S : ℚ) (hA : IsVec p0 A) (hB : IsVec p1 B) (hC : IsVec p2 C) (hP : IsVec r.origin P) (hV : IsVec r.direction V)
    (bA : Within R A) (bB : Within R B) (bC : Within R C) (bP : Within R P) (bV : Within S V) (hg : HitInRange f R S E) (T U W : ℚ)
    (h : point P V T = weighted A B C U W) (hs : E + seenSlack f R S ≤ |seen A B C V|) (hU : margin f R S ≤ U * |seen A B C V|) (hW : margin f R S ≤ W * |seen A B C V|)
    (hUW : margin f R S ≤ (1 - U - W) * |seen A B C V|) :
    ∃ t T', hitsTriangle f epsilon c r p0 p1 p2 = some (some t) ∧ value t = some T' ∧
      |seen A B C V| * |T' - T| ≤ |T'| * seenSlack f R S + divisionSlack f (seenMost f R S) (depthMost f R) + depthSlack f R := by
  obtain ⟨h', D, n, m, l, e, s1, s2, s3, s4, -, d2⟩ := summary hf hE E0 c hA hB hC hP hV bA bB bC bP bV hg
  have l0 : 0 ≤ seenSlack f R S := (abs_nonneg _).trans s1
  have w : ∀ i, (P - A) i = U * (B - A) i + W * (C - A) i - T * V i := by
    intro i
    have := congrFun h i
    simp only [point, weighted, Pi.sub_apply] at this ⊢
    linarith
  have eU : triple (P - A) V (C - A) = U * seen A B C V := by unfold seen triple; rw [w 0, w 1, w 2]; ring
  have eW : triple V (P - A) (B - A) = W * seen A B C V := by unfold seen triple; rw [w 0, w 1, w 2]; ring
  have eT : triple (C - A) (P - A) (B - A) = T * seen A B C V := by unfold seen triple; rw [w 0, w 1, w 2]; ring
  rw [eU] at s2
  rw [eW] at s3
  rw [eT] at s4
  change |D - seen A B C V| ≤ _ at s1
  set Z := seen A B C V with hZ
  have hD : |Z| - seenSlack f R S ≤ |D| := by
    have := abs_add_le D (Z - D)
    rw [add_sub_cancel, abs_sub_comm Z] at this
    linarith
  obtain ⟨U', W', T', q1, q2, q3, q4, q5⟩ := d2 (by linarith)
  have dq : 0 ≤ divisionSlack f (seenMost f R S) (seenMost f R S) := (abs_nonneg _).trans q1
  have Zp : 0 < |Z| := by linarith
  have mg : 3 * seenSlack f R S ≤ margin f R S := by unfold margin; linarith
  have U0 : 0 ≤ U := by by_contra hc; nlinarith
  have W0 : 0 ≤ W := by by_contra hc; nlinarith
  have sgn : ∀ {x y : ℚ}, seenSlack f R S ≤ x * |Z| → |y - x * Z| ≤ seenSlack f R S → 0 ≤ y * D := by
    intro x y hx hy
    have b := abs_le.1 hy
    have b' := abs_le.1 s1
    rcases lt_or_gt_of_ne (abs_pos.1 Zp) with hz | hz
    · rw [abs_of_neg hz] at hx hs
      exact mul_nonneg_of_nonpos_of_nonpos (by linarith) (by linarith)
    · rw [abs_of_pos hz] at hx hs
      exact mul_nonneg (by linarith) (by linarith)
  have len : ∀ {x y : ℚ}, 0 ≤ x → |y - x * Z| ≤ seenSlack f R S → |y| ≤ x * |Z| + seenSlack f R S := by
    intro x y hx hy
    have := abs_add_le (y - x * Z) (x * Z)
    rw [sub_add_cancel, abs_mul, abs_of_nonneg hx] at this
    linarith
  obtain ⟨t, ht⟩ := q5 (sgn (by linarith) s2) (sgn (by linarith) s3) (by
    have := len U0 s2
    have := len W0 s3
    unfold margin at hUW
    linarith)
  subst ht
  refine ⟨t, T', e, (q4 t rfl).1, ?_⟩
  rw [← abs_mul]
  have id : Z * (T' - T) = T' * (Z - D) + (T' * D - l) + (l - T * Z) := by ring
  rw [id]
  have t1 := abs_add_le (T' * (Z - D) + (T' * D - l)) (l - T * Z)
  have t2 := abs_add_le (T' * (Z - D)) (T' * D - l)
  rw [abs_mul, abs_sub_comm Z] at t2
  have t3 := mul_le_mul_of_nonneg_left s1 (abs_nonneg T')
  linarith

/-- Nothing is contracted. -/
def uncontracted : HitContraction :=
  ⟨((false, false), (false, false), (false, false)), ((false, false), (false, false), (false, false)), plain, plain, plain, plain, (false, false)⟩

/-- C184 is violated by large triangles: a ray of floats that goes through the triangle at the distance one hits it at the distance NaN. -/
theorem C184_hit_nan_violated : hitsTriangle binary32 (defaultEpsilon binary32 6) uncontracted ⟨.three (num 0) (num 0) (num 0), .three (num 0) (num 0) (num 1)⟩
      (.three (num (-2 ^ 100)) (num (-2 ^ 100)) (num 1)) (.three (num (2 ^ 102)) (num (-2 ^ 100)) (num 1)) (.three (num (-2 ^ 100)) (num (2 ^ 102)) (num 1)) = some (some .nan) ∧
    point ![0, 0, 0] ![0, 0, 1] 1 = weighted ![-2 ^ 100, -2 ^ 100, 1] ![2 ^ 102, -2 ^ 100, 1] ![-2 ^ 100, 2 ^ 102, 1] (1 / 5) (1 / 5) := by
  refine ⟨by decide +kernel, ?_⟩
  funext i
  fin_cases i <;> norm_num [point, weighted]

/-- C184 is violated: a triangle behind the ray is hit, at a negative distance. -/
theorem C184_hit_behind_violated : hitsTriangle binary32 (defaultEpsilon binary32 6) uncontracted ⟨.three (num 1) (num 1) (num 1), .three (num 0) (num 0) (num 1)⟩
      (.three (num 0) (num 0) (num 0)) (.three (num 4) (num 0) (num 0)) (.three (num 0) (num 4) (num 0)) = some (some (num (-1))) := by decide +kernel

/-- C184 is violated by the area: that of a triangle whose corners are not on a line is NaN, whatever is contracted. -/
theorem C184_area_violated : ∀ k0 k1 k2 : Bool × Bool × Bool,
    area binary32 (.three k0.1 k0.2.1 k0.2.2) (.three k1.1 k1.2.1 k1.2.2) (.three k2.1 k2.2.1 k2.2.2) (.three (num 0) (num 0) (num 0)) (.three (num 1) (num 4) (num 0))
      (.three (num 3) (num 12) (num (1 / 4096))) = some .nan := by decide +kernel

/-- Where four roundings of the centroid's coordinates fit. -/
example : ∀ i, (1 + binary32.u) ^ 4 * ((|(![1, 2, 3] : Fin 3 → ℚ) i| + |(![4, -5, 6] : Fin 3 → ℚ) i| + |(![7, 8, -9] : Fin 3 → ℚ) i|) +
    (|(![1, 2, 3] : Fin 3 → ℚ) i| + |(![4, -5, 6] : Fin 3 → ℚ) i| + |(![7, 8, -9] : Fin 3 → ℚ) i| + 3) * binary32.tiny) ≤ binary32.greatest := by decide +kernel

/-- Sides that are moderate: the triangle of sides three, four and five. -/
example : (1 + binary32.u) ^ 6 < 2 ∧ Moderate binary32 (squared ![0, 0, 1] ![3, 0, 1]) ∧ Moderate binary32 (squared ![3, 0, 1] ![3, 4, 1]) ∧
    Moderate binary32 (squared ![3, 4, 1] ![0, 0, 1]) ∧
    perimeter binary32 plain plain plain (.three (num 0) (num 0) (num 1)) (.three (num 3) (num 0) (num 1)) (.three (num 3) (num 4) (num 1)) = some (num 12) := by
  unfold Moderate squared
  decide +kernel

/-- A ray that clearly goes through a triangle, at the distance 4. -/
example : value (defaultEpsilon binary32 6) = some (10995116 / 1099511627776) ∧ HitInRange binary32 4 1 (10995116 / 1099511627776) ∧
    point ![1, 1, 4] ![0, 0, -1] 4 = weighted ![0, 0, 0] ![4, 0, 0] ![0, 4, 0] (1 / 4) (1 / 4) ∧
    10995116 / 1099511627776 + seenSlack binary32 4 1 ≤ |seen ![0, 0, 0] ![4, 0, 0] ![0, 4, 0] ![0, 0, -1]| ∧
    margin binary32 4 1 ≤ 1 / 4 * |seen ![0, 0, 0] ![4, 0, 0] ![0, 4, 0] ![0, 0, -1]| ∧
    hitsTriangle binary32 (defaultEpsilon binary32 6) uncontracted ⟨.three (num 1) (num 1) (num 4), .three (num 0) (num 0) (num (-1))⟩ (.three (num 0) (num 0) (num 0))
      (.three (num 4) (num 0) (num 0)) (.three (num 0) (num 4) (num 0)) = some (some (num 4)) := by
  refine ⟨?_, ?_, ?_, by decide +kernel, by decide +kernel, by decide +kernel⟩
  · decide +kernel
  · unfold HitInRange; decide +kernel
  · funext i; fin_cases i <;> norm_num [point, weighted]

end Verif.Props.FloatTriangle
