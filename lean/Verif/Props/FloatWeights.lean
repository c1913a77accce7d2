import Verif.Proofs.FloatWeights
import Verif.Props.FloatTriangle
/-!
# C187: barycentric coordinates and points inside triangles, of floating-point numbers
-/
namespace Verif.Props.FloatWeights
open Verif.Spec.IeeeArith Verif.Spec.FloatFormat Verif.Spec.FloatSqrt Verif.Spec.TriangleRounding Verif.Spec.Weights
open Verif.Model.VectorStore hiding construct
open Verif.Model.FloatVector Verif.Model.FloatProducts Verif.Model.FloatWeights
open Verif.Proofs.FloatVector Verif.Proofs.FloatProducts Verif.Proofs.FloatError Verif.Proofs.FloatPlane Verif.Proofs.FloatRay Verif.Proofs.FloatTriangle
open Verif.Proofs.FloatWeights
open Verif.Props.FloatCross (are3)
open Verif.Props.FloatVector (num)
open Verif.Props.FloatPlane (plain)

/-- C187: the generator gives the coordinates that `barycentric` gives, if the compiler chooses the same contractions. -/
theorem C187_generator (f : Format) (c : Contractions) (p0 p1 p2 point : Store Number 3) :
    (do Generator.call f c (← Generator.make f c p0 p1 p2) point) = barycentric f c p0 p1 p2 point := by
  cases p0; cases p1; cases p2; cases point
  rcases c with ⟨⟨⟩, ⟨⟩, ⟨⟩, ⟨⟩, ⟨⟩, _, _, _, _⟩
  rfl

/-- C187: coordinates that are finite have the sum one but for rounding, whatever the triangle and the point. -/
theorem C187_sum (f : Format) (hf : Usual f) (c : Contractions) (p0 p1 p2 point w : Store Number 3) (X Y Z : ℚ) (h : barycentric f c p0 p1 p2 point = some w)
    (hw : IsVec w ![X, Y, Z]) : |X + Y + Z - 1| ≤ 4 * f.u * (1 + |Y| + |Z|) + 6 * f.tiny := by
  obtain ⟨-, -, -, -, -, -, -, -, D, y, z, -, -, -, -, -, -, -, -, -, -, -, rfl⟩ := bary_inv h
  obtain ⟨hX, hY, hZ⟩ := vec_inv hw
  have one : value (.fin false 1) = some 1 := by simp [value, signed]
  obtain ⟨-, S, hS⟩ := finite_sub (finite_round ⟨X, hX⟩)
  obtain ⟨⟨P, hP⟩, Q, hQ⟩ := finite_add (finite_round ⟨S, hS⟩)
  obtain ⟨q, hq⟩ := finite_round ⟨Y, hY⟩
  obtain ⟨r, hr⟩ := finite_round ⟨Z, hZ⟩
  obtain ⟨a1, a2⟩ := term hf c.sum.1 hq hY hP
  obtain ⟨b1, b2⟩ := term hf c.sum.2 hr hZ hQ
  have eS := value_of_round (value_add hP hQ) hS
  have eX := value_of_round (value_sub' one hS) hX
  have hu := u_pos f
  have hu8 := Verif.Proofs.FloatLength.u_le hf
  have ht := tiny_pos f
  have e1 := err f (P + Q)
  rw [← eS] at e1
  have e2 := err f (1 - S)
  rw [← eX] at e2
  have PQ := abs_add_le P Q
  have S1 := abs_add_le (S - (P + Q)) (P + Q)
  rw [sub_add_cancel] at S1
  have S2 := abs_sub 1 S
  rw [abs_one] at S2
  have Y0 := abs_nonneg Y
  have Z0 := abs_nonneg Z
  have m1 := mul_le_mul_of_nonneg_left (PQ.trans (add_le_add a2 b2)) hu.le
  have m1' : f.u * |P + Q| ≤ 1 / 8 * (8 / 7 * (|Y| + f.tiny) + 8 / 7 * (|Z| + f.tiny)) := by
    have : 0 ≤ 8 / 7 * (|Y| + f.tiny) + 8 / 7 * (|Z| + f.tiny) := by positivity
    exact m1.trans (mul_le_mul_of_nonneg_right hu8 this)
  have S3 : |1 - S| ≤ 1 + 9 / 7 * (|Y| + |Z| + 2 * f.tiny) + f.tiny := by linarith
  have m2 := mul_le_mul_of_nonneg_left S3 hu.le
  have ut : f.u * f.tiny ≤ 1 / 8 * f.tiny := mul_le_mul_of_nonneg_right hu8 ht.le
  have uY : 0 ≤ f.u * |Y| := by positivity
  have uZ : 0 ≤ f.u * |Z| := by positivity
  have split : X + Y + Z - 1 = (X - (1 - S)) + -(S - (P + Q)) + (-(P - Y) + -(Q - Z)) := by ring
  have t1 := abs_add_le ((X - (1 - S)) + -(S - (P + Q))) (-(P - Y) + -(Q - Z))
  have t2 := abs_add_le (X - (1 - S)) (-(S - (P + Q)))
  have t3 := abs_add_le (-(P - Y)) (-(Q - Z))
  rw [abs_neg] at t2
  rw [abs_neg, abs_neg] at t3
  rw [split]
  linarith

/-- C187: the first corner has exactly the coordinates one, zero and zero, if its second and third coordinates are finite, whatever is contracted. -/
theorem C187_first (f : Format) (hf : Usual f) (c : Contractions) (p0 p1 p2 w : Store Number 3) (h : barycentric f c p0 p1 p2 p0 = some w)
    (x y z : Number) (hw : w = .three x y z) (hy : ∃ Y, value y = some Y) (hz : ∃ Z, value z = some Z) : IsVec w ![1, 0, 0] := by
  have four := Verif.Proofs.FloatLength.four_le hf
  have hg : 0 ≤ f.greatest := by linarith
  have hp : 1 ≤ f.p := by have := hf.bits; omega
  have one : value (.fin false 1) = some 1 := by simp [value, signed]
  obtain ⟨e1, e2, e3, d00, d01, d11, d20, d21, D, yn, zn, -, -, he3, -, -, -, h20, h21, -, ey, ez, e⟩ := bary_inv h
  rw [hw] at e
  obtain ⟨rfl, rfl, rfl⟩ : x = _ ∧ y = _ ∧ z = _ := by injection e with a b c; exact ⟨a, b, c⟩
  obtain ⟨Y, hY⟩ := hy
  obtain ⟨Z, hZ⟩ := hz
  obtain ⟨fy, I, hI⟩ := finite_mul (finite_round ⟨Y, hY⟩)
  obtain ⟨fz, -⟩ := finite_mul (finite_round ⟨Z, hZ⟩)
  rw [ey] at fy
  rw [ez] at fz
  obtain ⟨⟨⟨v11, f11⟩, f20⟩, ⟨v01, f01⟩, f21⟩ := finite_difference fy
  obtain ⟨⟨⟨v00, f00⟩, -⟩, -⟩ := finite_difference fz
  obtain ⟨⟨X3, x3⟩, X1, x1⟩ := vec_of_dot h20 f20
  obtain ⟨-, X2, x2⟩ := vec_of_dot h21 f21
  obtain ⟨P, hP⟩ := vec_of_sub he3 x3
  obtain ⟨d, hd, zd⟩ := sub_self_vec hg hP
  rw [he3, Option.some.injEq] at hd
  subst hd
  obtain ⟨r, hr, zr⟩ := zero_dot hg c.d20 zd x1 fun i => .inl rfl
  rw [h20, Option.some.injEq] at hr
  subst hr
  obtain ⟨r, hr, zr'⟩ := zero_dot hg c.d21 zd x2 fun i => .inl rfl
  rw [h21, Option.some.injEq] at hr
  subst hr
  have yz : value yn = some 0 := ey ▸ zero_difference hg c.y f11 zr f01 zr' (.inr rfl) (.inr rfl)
  have zz : value zn = some 0 := ez ▸ zero_difference hg c.z f00 zr' f01 zr (.inr rfl) (.inr rfl)
  have Y0 := weight_zero yz hY
  have Z0 := weight_zero zz hZ
  subst Y0 Z0
  have s := value_add (zero_product hg c.sum.1 yz hI (.inl rfl)) (zero_product hg c.sum.2 zz hI (.inl rfl))
  rw [add_zero] at s
  have x := value_sub' one (zero_round hg s)
  rw [sub_zero] at x
  have r1 : rd f 1 = 1 := by
    have := rd_exact f hp 1 0 (by rw [abs_one]; exact one_le_pow₀ (by norm_num)) (by have := hf.least; omega)
    simpa using this
  have x' := value_round f x (by rw [r1, abs_one]; linarith)
  rw [r1] at x'
  rw [hw]
  exact vec3 x' hY hZ

/-- C187: the second corner has the coordinates zero, one and zero, but for the rounding of the division, where nothing but the dot products (in the same way) is contracted. The
third is exactly zero. -/
theorem C187_second_partial (f : Format) (hf : Usual f) (c : Contractions) (k1 : c.d20 = c.d00) (k2 : c.d21 = c.d01) (k3 : c.divisor = (false, false)) (k4 : c.y = (false, false))
    (k5 : c.z = (false, false)) (p0 p1 p2 w : Store Number 3) (A B C : Fin 3 → ℚ) (R X Y Z : ℚ) (hA : IsVec p0 A) (hB : IsVec p1 B) (hC : IsVec p2 C) (bA : Within R A)
    (bB : Within R B) (bC : Within R C) (hg : InRange f R) (h : barycentric f c p0 p1 p2 p1 = some w) (hw : IsVec w ![X, Y, Z]) :
    Z = 0 ∧ |Y - 1| ≤ (1 + f.u) * (1 + f.u + f.tiny * gramMost f R) - 1 + f.tiny := by
  obtain ⟨e1, e2, e3, d00, d01, d11, d20, d21, D, y, z, h1, h2, h3, g1, g2, g3, g4, g5, eD, ey, ez, e, nD, ny, nz⟩ := parts_near hf c hA hB hC hB bA bB bC bB hg
  rw [h, Option.some.injEq] at e
  subst e
  obtain ⟨-, hY, hZ⟩ := vec_inv hw
  rw [h1, Option.some.injEq] at h3
  subst h3
  rw [k1, g1, Option.some.injEq] at g4
  rw [k2, g2, Option.some.injEq] at g5
  subst g4 g5
  obtain ⟨d, hd, bd⟩ := nD.mag
  obtain ⟨n, hn, -⟩ := nz
  have four := Verif.Proofs.FloatLength.four_le hf
  constructor
  · refine weight_zero ?_ hZ
    rw [ez, k5] at hn ⊢
    obtain ⟨⟨P, hP⟩, Q, hQ⟩ := finite_sub (finite_round ⟨n, hn⟩)
    simp only at hP hQ
    have hP' := hP
    rw [product_comm, hQ, Option.some.injEq] at hP'
    subst hP'
    have s := value_sub' hP hQ
    rw [sub_self] at s
    exact zero_round (by linarith) s
  · refine unit_weight (D := D) hd ?_ bd hY
    rw [ey, k4, ← hd, eD, k3]
    unfold difference
    rw [product_comm f d11]

/-- C187: the same of the third corner. -/
theorem C187_third_partial (f : Format) (hf : Usual f) (c : Contractions) (k1 : c.d20 = c.d01) (k2 : c.d21 = c.d11) (k3 : c.divisor = (false, false)) (k4 : c.y = (false, false))
    (k5 : c.z = (false, false)) (p0 p1 p2 w : Store Number 3) (A B C : Fin 3 → ℚ) (R X Y Z : ℚ) (hA : IsVec p0 A) (hB : IsVec p1 B) (hC : IsVec p2 C) (bA : Within R A)
    (bB : Within R B) (bC : Within R C) (hg : InRange f R) (h : barycentric f c p0 p1 p2 p2 = some w) (hw : IsVec w ![X, Y, Z]) :
    Y = 0 ∧ |Z - 1| ≤ (1 + f.u) * (1 + f.u + f.tiny * gramMost f R) - 1 + f.tiny := by
  obtain ⟨e1, e2, e3, d00, d01, d11, d20, d21, D, y, z, h1, h2, h3, g1, g2, g3, g4, g5, eD, ey, ez, e, nD, ny, nz⟩ := parts_near hf c hA hB hC hC bA bB bC bC hg
  rw [h, Option.some.injEq] at e
  subst e
  obtain ⟨-, hY, hZ⟩ := vec_inv hw
  rw [h2, Option.some.injEq] at h3
  subst h3
  rw [k1, dot_comm, g2, Option.some.injEq] at g4
  rw [k2, g3, Option.some.injEq] at g5
  subst g4 g5
  obtain ⟨d, hd, bd⟩ := nD.mag
  obtain ⟨n, hn, -⟩ := ny
  have four := Verif.Proofs.FloatLength.four_le hf
  constructor
  · refine weight_zero ?_ hY
    rw [ey, k4] at hn ⊢
    obtain ⟨⟨P, hP⟩, Q, hQ⟩ := finite_sub (finite_round ⟨n, hn⟩)
    simp only at hP hQ
    have hP' := hP
    rw [product_comm, hQ, Option.some.injEq] at hP'
    subst hP'
    have s := value_sub' hP hQ
    rw [sub_self] at s
    exact zero_round (by linarith) s
  · refine unit_weight (D := D) hd ?_ bd hZ
    rw [ez, k5, ← hd, eD, k3]

/-- C187: the coordinates that are found are those of the point (or of the point of the triangle's plane below it) but for rounding, which matters the more the smaller the
triangle's area is, if the sums of products do not overflow and the coordinates are finite. -/
theorem C187_weights (f : Format) (hf : Usual f) (c : Contractions) (p0 p1 p2 point w : Store Number 3) (A B C P : Fin 3 → ℚ) (R U W X Y Z : ℚ) (hA : IsVec p0 A) (hB : IsVec p1 B)
    (hC : IsVec p2 C) (hP : IsVec point P) (bA : Within R A) (bB : Within R B) (bC : Within R C) (bP : Within R P) (hg : InRange f R) (hUW : Above A B C P U W)
    (h : barycentric f c p0 p1 p2 point = some w) (hw : IsVec w ![X, Y, Z]) :
    gram A B C * |Y - U| ≤ weightSlack f R Y ∧ gram A B C * |Z - W| ≤ weightSlack f R Z := by
  obtain ⟨e1, e2, e3, d00, d01, d11, d20, d21, D, y, z, -, -, -, -, -, -, -, -, -, -, -, e, nD, ny, nz⟩ := parts_near hf c hA hB hC hP bA bB bC bP hg
  rw [h, Option.some.injEq] at e
  subst e
  obtain ⟨-, hY, hZ⟩ := vec_inv hw
  obtain ⟨E1, E2⟩ := numerators hUW
  rw [E1] at ny
  rw [E2] at nz
  have G : dotted (B - A) (B - A) * dotted (C - A) (C - A) - dotted (B - A) (C - A) * dotted (B - A) (C - A) = gram A B C := by
    unfold gram
    rw [scalar_dotted, scalar_dotted, scalar_dotted]
    ring
  rw [G] at nD
  have G0 : 0 ≤ gram A B C := by
    rw [← G]
    simp only [dotted, Pi.sub_apply]
    nlinarith [sq_nonneg ((B 0 - A 0) * (C 1 - A 1) - (B 1 - A 1) * (C 0 - A 0)), sq_nonneg ((B 0 - A 0) * (C 2 - A 2) - (B 2 - A 2) * (C 0 - A 0)),
      sq_nonneg ((B 1 - A 1) * (C 2 - A 2) - (B 2 - A 2) * (C 1 - A 1))]
  have go : ∀ {n : Number} {V T : ℚ}, Near f 12 (288 * R ^ 4) (600 * (R + 1) ^ 3 * f.tiny) n (V * gram A B C) →
      value (Op.mul.eval f n (Op.div.eval f (.fin false 1) D)) = some T → gram A B C * |T - V| ≤ weightSlack f R T := by
    intro n V T hn hT
    obtain ⟨d, hd, bd⟩ := nD.mag
    obtain ⟨d', hd', -, -, sd⟩ := nD
    obtain rfl : d = d' := Option.some.inj (hd.symm.trans hd')
    obtain ⟨m, hm, bm⟩ := hn.mag
    obtain ⟨m', hm', -, -, sm⟩ := hn
    obtain rfl : m = m' := Option.some.inj (hm.symm.trans hm')
    have q := (weight hd hm bd hT).2.2.trans (slack_mono ((abs_nonneg _).trans bd) bm)
    have id : gram A B C * (T - V) = T * (gram A B C - d) + (T * d - m) + (m - V * gram A B C) := by ring
    have fold : gram A B C * |T - V| = |gram A B C * (T - V)| := by rw [abs_mul, abs_of_nonneg G0]
    rw [fold, id]
    have t1 := abs_add_le (T * (gram A B C - d) + (T * d - m)) (m - V * gram A B C)
    have t2 := abs_add_le (T * (gram A B C - d)) (T * d - m)
    rw [abs_mul, abs_sub_comm (gram A B C)] at t2
    have t3 := mul_le_mul_of_nonneg_left sd (abs_nonneg T)
    unfold weightSlack gramSlack gramMost
    linarith
  exact ⟨go ny hY, go nz hZ⟩

/-- C187: a point of the triangle's plane that is reported as contained has no two weights (of the first corner and of another) that are clearly of opposite signs. The weights
are `1 - U - W`, `U` and `W`. -/
theorem C187_contained_partial (f : Format) (hf : Usual f) (c : SideContractions) (p0 p1 p2 point : Store Number 3) (A B C P : Fin 3 → ℚ) (R U W : ℚ) (hA : IsVec p0 A)
    (hB : IsVec p1 B) (hC : IsVec p2 C) (hP : IsVec point P) (bA : Within R A) (bB : Within R B) (bC : Within R C) (bP : Within R P) (hg : InRange f R) (hUW : P = weighted A B C U W)
    (h : containsCoplanar f c p0 p1 p2 point = some true) :
    -sideSlack f R ≤ (1 - U - W) * U * gram A B C ∧ -sideSlack f R ≤ (1 - U - W) * W * gram A B C := by
  obtain ⟨x, y, e, ⟨X, hx, -, -, bx⟩, Y, hy, -, -, bY⟩ := sides_near hf c hA hB hC hP bA bB bC bP hg
  rw [h, Option.some.injEq, eq_comm, Bool.and_eq_true, atLeast_zero hx, atLeast_zero hy] at e
  obtain ⟨E1, E2⟩ := sides (A := A) (B := B) (C := C) U W
  rw [hUW, E1] at bx
  rw [hUW, E2] at bY
  have b1 := abs_le.1 bx
  have b2 := abs_le.1 bY
  unfold sideSlack
  constructor <;> linarith

/-- C187: every point of the triangle's plane that is clearly inside is contained. -/
theorem C187_found (f : Format) (hf : Usual f) (c : SideContractions) (p0 p1 p2 point : Store Number 3) (A B C P : Fin 3 → ℚ) (R U W : ℚ) (hA : IsVec p0 A)
    (hB : IsVec p1 B) (hC : IsVec p2 C) (hP : IsVec point P) (bA : Within R A) (bB : Within R B) (bC : Within R C) (bP : Within R P) (hg : InRange f R) (hUW : P = weighted A B C U W)
    (h1 : sideSlack f R ≤ (1 - U - W) * U * gram A B C) (h2 : sideSlack f R ≤ (1 - U - W) * W * gram A B C) :
    containsCoplanar f c p0 p1 p2 point = some true := by
  obtain ⟨x, y, e, ⟨X, hx, -, -, bx⟩, Y, hy, -, -, bY⟩ := sides_near hf c hA hB hC hP bA bB bC bP hg
  obtain ⟨E1, E2⟩ := sides (A := A) (B := B) (C := C) U W
  rw [hUW, E1] at bx
  rw [hUW, E2] at bY
  have b1 := abs_le.1 bx
  have b2 := abs_le.1 bY
  unfold sideSlack at h1 h2
  rw [e, (atLeast_zero hx).2 (by linarith), (atLeast_zero hy).2 (by linarith)]
  rfl

/-- C187: a triangle contains its corners, whatever is contracted, if nothing overflows. -/
theorem C187_corners (f : Format) (hf : Usual f) (c : SideContractions) (p0 p1 p2 : Store Number 3) (A B C : Fin 3 → ℚ) (R : ℚ) (hA : IsVec p0 A)
    (hB : IsVec p1 B) (hC : IsVec p2 C) (bA : Within R A) (bB : Within R B) (bC : Within R C) (hg : InRange f R) :
    containsCoplanar f c p0 p1 p2 p0 = some true ∧ containsCoplanar f c p0 p1 p2 p1 = some true ∧ containsCoplanar f c p0 p1 p2 p2 = some true := by
  have hR : 0 ≤ R := (abs_nonneg _).trans (bA 0)
  have four := Verif.Proofs.FloatLength.four_le hf
  have g0 : 0 ≤ f.greatest := by linarith
  obtain ⟨s1, -, -, -, s5, s6, -⟩ := small_terms hf hR
  have most : 0 ≤ 900 * (R + 1) ^ 4 := by positivity
  have go : ∀ (p : Store Number 3) (P : Fin 3 → ℚ), IsVec p P → Within R P → p = p0 ∨ p = p1 ∨ p = p2 → containsCoplanar f c p0 p1 p2 p = some true := by
    intro p P hP bP hp
    obtain ⟨a, ha, n1⟩ := sub_near (f := f) hA hP bA bP (grow (l := 12) (by norm_num) s1 most hg)
    obtain ⟨b, hb, n2⟩ := sub_near (f := f) hB hP bB bP (grow (l := 12) (by norm_num) s1 most hg)
    obtain ⟨d, hd, n3⟩ := sub_near (f := f) hC hP bC bP (grow (l := 12) (by norm_num) s1 most hg)
    obtain ⟨U, hu⟩ := near_vec (cross_near c.u n2 n3 (grow (l := 12) (by norm_num) s5 most hg))
    obtain ⟨V, hv⟩ := near_vec (cross_near c.v n3 n1 (grow (l := 12) (by norm_num) s5 most hg))
    obtain ⟨W, hw⟩ := near_vec (cross_near c.w n1 n2 (grow (l := 12) (by norm_num) s5 most hg))
    obtain ⟨A', vA⟩ := near_vec n1
    obtain ⟨B', vB⟩ := near_vec n2
    obtain ⟨C', vC⟩ := near_vec n3
    have zero : ∃ x y, dot f c.uv (cross f c.u.1 c.u.2.1 c.u.2.2 b d) (cross f c.v.1 c.v.2.1 c.v.2.2 d a) = some x ∧
        dot f c.uw (cross f c.u.1 c.u.2.1 c.u.2.2 b d) (cross f c.w.1 c.w.2.1 c.w.2.2 a b) = some y ∧ value x = some 0 ∧ value y = some 0 := by
      obtain ⟨o, ho, zo⟩ := sub_self_vec g0 hP
      rcases hp with rfl | rfl | rfl
      · rw [ha, Option.some.injEq] at ho
        subst ho
        obtain ⟨x, e1, z1⟩ := zero_dot g0 c.uv hu (zero_cross g0 c.v vC zo (.inr rfl)) fun i => .inr rfl
        obtain ⟨y, e2, z2⟩ := zero_dot g0 c.uw hu (zero_cross g0 c.w zo vB (.inl rfl)) fun i => .inr rfl
        exact ⟨x, y, e1, e2, z1, z2⟩
      · rw [hb, Option.some.injEq] at ho
        subst ho
        obtain ⟨x, e1, z1⟩ := zero_dot g0 c.uv (zero_cross g0 c.u zo vC (.inl rfl)) hv fun i => .inl rfl
        obtain ⟨y, e2, z2⟩ := zero_dot g0 c.uw (zero_cross g0 c.u zo vC (.inl rfl)) hw fun i => .inl rfl
        exact ⟨x, y, e1, e2, z1, z2⟩
      · rw [hd, Option.some.injEq] at ho
        subst ho
        obtain ⟨x, e1, z1⟩ := zero_dot g0 c.uv (zero_cross g0 c.u vB zo (.inr rfl)) hv fun i => .inl rfl
        obtain ⟨y, e2, z2⟩ := zero_dot g0 c.uw (zero_cross g0 c.u vB zo (.inr rfl)) hw fun i => .inl rfl
        exact ⟨x, y, e1, e2, z1, z2⟩
    obtain ⟨x, y, e1, e2, z1, z2⟩ := zero
    unfold containsCoplanar
    simp only [ha, hb, hd, e1, e2, Option.bind_eq_bind, Option.bind_some, (atLeast_zero z1).2 le_rfl, (atLeast_zero z2).2 le_rfl, Bool.and_self]
  exact ⟨go p0 A hA bA (.inl rfl), go p1 B hB bB (.inr (.inl rfl)), go p2 C hC bC (.inr (.inr rfl))⟩

/-- Nothing is contracted. -/
def uncontracted : Contractions := ⟨plain, plain, plain, plain, plain, (false, false), (false, false), (false, false), (false, false)⟩

/-- The first product of each difference is contracted. -/
def contracted : Contractions := ⟨plain, plain, plain, plain, plain, (true, false), (true, false), (true, false), (false, false)⟩

/-- Nothing is contracted. -/
def plainSides : SideContractions :=
  ⟨((false, false), (false, false), (false, false)), ((false, false), (false, false), (false, false)), ((false, false), (false, false), (false, false)), plain, plain⟩

/-- The first products of the third components of the cross products are contracted. -/
def fusedSides : SideContractions :=
  ⟨((false, false), (false, false), (true, false)), ((false, false), (false, false), (true, false)), ((false, false), (false, false), (true, false)), plain, plain⟩

/-- C187 is violated with contraction: the second corner of a triangle of small integers (whose area is five halves) gets the coordinates -11, 1 and 11. -/
theorem C187_corner_violated : gram ![0, 0, 0] ![117, 5, 0] ![467, 20, 0] = 25 ∧
    parts <$> barycentric binary32 contracted (.three (num 0) (num 0) (num 0)) (.three (num 117) (num 5) (num 0)) (.three (num 467) (num 20) (num 0))
      (.three (num 117) (num 5) (num 0)) = some [num (-11), num 1, num 11] := by
  exact ⟨by decide +kernel, by decide +kernel⟩

/-- C187 is violated by thin triangles: where the corners are not on a line, all coordinates of the first corner are NaN, though nothing overflows or is contracted. -/
theorem C187_thin_violated : gram ![0, 0, 0] ![1, 0, 0] ![4096, 1, 0] = 1 ∧
    parts <$> barycentric binary32 uncontracted (.three (num 0) (num 0) (num 0)) (.three (num 1) (num 0) (num 0)) (.three (num 4096) (num 1) (num 0))
      (.three (num 0) (num 0) (num 0)) = some [.nan, .nan, .nan] := by
  exact ⟨by decide +kernel, by decide +kernel⟩

/-- C187 is violated with contraction: the exact middle of an edge is reported as not contained. -/
theorem C187_edge_violated : (![0, 0, 0] : Fin 3 → ℚ) = weighted ![-4097, -4099, 0] ![4097, 4099, 0] ![4099, 0, 0] (1 / 2) 0 ∧
    containsCoplanar binary32 plainSides (.three (num (-4097)) (num (-4099)) (num 0)) (.three (num 4097) (num 4099) (num 0)) (.three (num 4099) (num 0) (num 0))
      (.three (num 0) (num 0) (num 0)) = some true ∧
    containsCoplanar binary32 fusedSides (.three (num (-4097)) (num (-4099)) (num 0)) (.three (num 4097) (num 4099) (num 0)) (.three (num 4099) (num 0) (num 0))
      (.three (num 0) (num 0) (num 0)) = some false := by
  refine ⟨?_, by decide +kernel, by decide +kernel⟩
  funext i
  fin_cases i <;> norm_num [weighted]

/-- C187 is violated: a point of the line of the second and third corners that is off the triangle by more than an edge is contained. -/
theorem C187_contained_violated : (![2, -1, 0] : Fin 3 → ℚ) = weighted ![0, 0, 0] ![1, 0, 0] ![0, 1, 0] 2 (-1) ∧
    containsCoplanar binary32 plainSides (.three (num 0) (num 0) (num 0)) (.three (num 1) (num 0) (num 0)) (.three (num 0) (num 1) (num 0))
      (.three (num 2) (num (-1)) (num 0)) = some true := by
  refine ⟨?_, by decide +kernel⟩
  funext i
  fin_cases i <;> norm_num [weighted]

/-- Coordinates of a point above a triangle, and what rounding can change of them at most; a point clearly inside. -/
example : InRange binary32 4 ∧ Above ![0, 0, 0] ![4, 0, 0] ![0, 4, 0] ![1, 2, 3] (1 / 4) (1 / 2) ∧
    parts <$> barycentric binary32 uncontracted (.three (num 0) (num 0) (num 0)) (.three (num 4) (num 0) (num 0)) (.three (num 0) (num 4) (num 0))
      (.three (num 1) (num 2) (num 3)) = some [num (1 / 4), num (1 / 4), num (1 / 2)] ∧
    weightSlack binary32 4 (1 / 2) ≤ 1 / 4 ∧ gram ![0, 0, 0] ![4, 0, 0] ![0, 4, 0] = 256 ∧
    sideSlack binary32 4 ≤ (1 - 1 / 4 - 1 / 2) * (1 / 4) * gram ![0, 0, 0] ![4, 0, 0] ![0, 4, 0] := by
  refine ⟨?_, ?_, by decide +kernel, by decide +kernel, by decide +kernel, by decide +kernel⟩
  · unfold InRange; decide +kernel
  · unfold Above; decide +kernel

/-- The second and third corners' own coordinates are finite. -/
example : uncontracted.d20 = uncontracted.d00 ∧ uncontracted.d21 = uncontracted.d01 ∧
    parts <$> barycentric binary32 uncontracted (.three (num 1) (num 1) (num 0)) (.three (num 4) (num 1) (num 1)) (.three (num 2) (num 4) (num 0))
      (.three (num 4) (num 1) (num 1)) = some [num 0, num 1, num 0] ∧ (1 + binary32.u) * (1 + binary32.u + binary32.tiny * gramMost binary32 4) - 1 + binary32.tiny ≤ 1 / 2 ^ 22 := by
  refine ⟨rfl, rfl, by decide +kernel, by decide +kernel⟩

end Verif.Props.FloatWeights
