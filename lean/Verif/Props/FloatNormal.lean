import Verif.Proofs.FloatNormal
import Verif.Props.FloatWeights
/-!
# C188: normals of triangles and points in their planes, of floating-point numbers
-/
namespace Verif.Props.FloatNormal
open Verif.Spec.IeeeArith Verif.Spec.FloatFormat Verif.Spec.FloatSqrt Verif.Spec.TriangleRounding Verif.Spec.Weights Verif.Spec.NormalRounding
open Verif.Model.VectorStore hiding construct
open Verif.Model.FloatVector Verif.Model.FloatProducts Verif.Model.FloatWeights Verif.Model.FloatNormal
open Verif.Proofs.FloatVector Verif.Proofs.FloatProducts Verif.Proofs.FloatError Verif.Proofs.FloatPlane Verif.Proofs.FloatRay Verif.Proofs.FloatTriangle
open Verif.Proofs.FloatWeights Verif.Proofs.FloatNormal
open Verif.Props.FloatCross (are3)
open Verif.Props.FloatVector (num)
open Verif.Props.FloatPlane (plain has32)
open Verif.Props.FloatWeights (plainSides)

/-- C188: each component of the normal is that of the unit normal but for rounding, if the triangle is not too thin, small or large. -/
theorem C188_normal (f : Format) (hf : Usual f) (h12 : 12 ≤ f.p) (c : NormalContractions) (hc : Contraction c.length) (p0 p1 p2 : Store Number 3) (A B C : Fin 3 → ℚ) (R ρ : ℚ)
    (hA : IsVec p0 A) (hB : IsVec p1 B) (hC : IsVec p2 C) (bA : Within R A) (bB : Within R B) (bC : Within R C) (hg : InRange f R) (hs : Steady f R ρ A B C) :
    ∃ n N, normal f c p0 p1 p2 = some n ∧ IsVec n N ∧ ∀ i, |(N i : ℝ) - unit A B C i| ≤ (normalSlack f ρ : ℚ) := by
  have hR : 0 ≤ R := (abs_nonneg _).trans (bA 0)
  obtain ⟨s1, -, -, -, s5, s6, -⟩ := small_terms hf hR
  have most : 0 ≤ 900 * (R + 1) ^ 4 := by positivity
  have hu := u_pos f
  have hu1 := u_small h12
  obtain ⟨e1, he1, n1⟩ := sub_near (f := f) hB hA bB bA (grow (l := 12) (by norm_num) s1 most hg)
  obtain ⟨e2, he2, n2⟩ := sub_near (f := f) hC hA bC bA (grow (l := 12) (by norm_num) s1 most hg)
  obtain ⟨x, y, z, ec, nx, ny, nz⟩ := cross_near c.edges n1 n2 (grow (l := 12) (by norm_num) s5 most hg)
  have wM : 2 * (2 * R * (2 * R)) ≤ 8 * R ^ 2 := le_of_eq (by ring)
  obtain ⟨X, hx, -, -, bx⟩ := nx.mono (k' := 4) (by norm_num) wM s6
  obtain ⟨Y, hy, -, -, bY⟩ := ny.mono (k' := 4) (by norm_num) wM s6
  obtain ⟨Z, hz, -, -, bZ⟩ := nz.mono (k' := 4) (by norm_num) wM s6
  obtain ⟨r0, r1, r2, lo, hi⟩ := hs
  set K := crossed (B - A) (C - A) with hK
  set E : Fin 3 → ℚ := ![X - K 0, Y - K 1, Z - K 2] with hE
  have E0 : E 0 = X - K 0 := rfl
  have E1 : E 1 = Y - K 1 := rfl
  have E2 : E 2 = Z - K 2 := rfl
  have bE : ∀ i, |E i| ≤ edgeSlack f R := by
    intro i
    fin_cases i
    · exact bx
    · exact bY
    · exact bZ
  have G := gram_crossed A B C
  rw [← hK] at G
  have change := square_change bE G r0 r1 r2
  rw [E0, E1, E2, add_sub_cancel, add_sub_cancel, add_sub_cancel] at change
  have G0 : 0 < gram A B C := by
    by_contra hc
    have := mul_nonpos_of_nonneg_of_nonpos hu.le (not_lt.1 hc)
    have : (0 : ℚ) < 2 * 2 ^ f.emin := by positivity
    linarith
  have ch := abs_le.1 change
  have rG : ρ * gram A B C ≤ 1 / 32 * gram A B C := mul_le_mul_of_nonneg_right r1 G0.le
  have low : gram A B C / 2 ≤ X ^ 2 + Y ^ 2 + Z ^ 2 := by linarith
  have high : X ^ 2 + Y ^ 2 + Z ^ 2 ≤ 2 * gram A B C := by linarith
  have sum : (([X, Y, Z] : List ℚ).map (· ^ 2)).sum = X ^ 2 + Y ^ 2 + Z ^ 2 := by simp [add_assoc]
  obtain ⟨out, w, ho, w0, hv, w1, w2⟩ := FloatLength.C150_normalize_partial f hf (n := 3) (by norm_num) c.length hc (.three x y z) [X, Y, Z] (by simp [parts, hx, hy, hz])
    (by push_cast; linarith) (by
      have : (1 + f.u) ^ (3 + 1) ≤ (1 + 1 / 4096) ^ 4 := pow_le_pow_left₀ (by linarith) (by linarith) 4
      exact this.trans (by norm_num)) (by
      rw [sum]
      have := mul_le_mul_of_nonneg_left low hu.le
      linarith) (by
      rw [sum]
      exact (mul_le_mul_of_nonneg_left high (by positivity)).trans hi)
  rw [sum] at w1 w2
  have cl := factor_exact hu hu1 r0 r1 (by positivity) (factor_close hu hu1 w1 w2) change
  have sqle : ∀ i, K i ^ 2 ≤ gram A B C := by
    intro i
    have := sq_nonneg (K 0)
    have := sq_nonneg (K 1)
    have := sq_nonneg (K 2)
    fin_cases i
    · show K 0 ^ 2 ≤ _; linarith
    · show K 1 ^ 2 ≤ _; linarith
    · show K 2 ^ 2 ≤ _; linarith
  refine ⟨out, ![rd f (X * w), rd f (Y * w), rd f (Z * w)], ?_, ?_, ?_⟩
  · unfold normal
    simp only [he1, he2, ec, Option.bind_eq_bind, Option.bind_some, ho]
  · show (parts out).map value = List.map some [rd f (X * w), rd f (Y * w), rd f (Z * w)]
    rw [hv]; rfl
  · intro i
    have := component h12 r0 r1 w0 G0 (bE i) r2 (sqle i) cl
    rw [unit_eq, ← hK]
    fin_cases i
    · have e : K 0 + E 0 = X := by rw [E0]; ring
      simpa [e] using this
    · have e : K 1 + E 1 = Y := by rw [E1]; ring
      simpa [e] using this
    · have e : K 2 + E 2 = Z := by rw [E2]; ring
      simpa [e] using this

theorem height_near (f : Format) (hf : Usual f) (h12 : 12 ≤ f.p) (c : NormalContractions) (hc : Contraction c.length) (p0 p1 p2 point : Store Number 3) (A B C P : Fin 3 → ℚ)
    (R ρ : ℚ) (hA : IsVec p0 A) (hB : IsVec p1 B) (hC : IsVec p2 C) (hP : IsVec point P) (bA : Within R A) (bB : Within R B) (bC : Within R C) (bP : Within R P)
    (hg : InRange f R) (hs : Steady f R ρ A B C) : ∃ e n r z, binary .sub f point p0 = some e ∧ normal f c p0 p1 p2 = some n ∧ dot f c.height e n = some r ∧ value r = some z ∧
      |(z : ℝ) - height A B C P| ≤ (heightSlack f R ρ : ℚ) := by
  obtain ⟨n, N, h1, h2, h3⟩ := C188_normal f hf h12 c hc p0 p1 p2 A B C R ρ hA hB hC bA bB bC hg hs
  have hR : 0 ≤ R := (abs_nonneg _).trans (bA 0)
  obtain ⟨s1, -⟩ := small_terms hf hR
  have most : 0 ≤ 900 * (R + 1) ^ 4 := by positivity
  have hu := u_pos f
  have hu1 := u_small h12
  have ht := tiny_pos f
  have ht1 := tiny_le hf
  obtain ⟨r0, r1, -, lo, -⟩ := hs
  have G0 : 0 < gram A B C := by
    by_contra hc
    have := mul_nonpos_of_nonneg_of_nonpos hu.le (not_lt.1 hc)
    have : (0 : ℚ) < 2 * 2 ^ f.emin := by positivity
    linarith
  have G := gram_crossed A B C
  have unit1 : ∀ i, |unit A B C i| ≤ 1 := by
    intro i
    have G0' : (0 : ℝ) < gram A B C := by exact_mod_cast G0
    rw [unit_eq, abs_div, abs_of_pos (Real.sqrt_pos.2 G0'), div_le_one (Real.sqrt_pos.2 G0')]
    apply Real.abs_le_sqrt
    have a0 := sq_nonneg (crossed (B - A) (C - A) 0)
    have a1 := sq_nonneg (crossed (B - A) (C - A) 1)
    have a2 := sq_nonneg (crossed (B - A) (C - A) 2)
    have : crossed (B - A) (C - A) i ^ 2 ≤ gram A B C := by
      fin_cases i
      · show crossed (B - A) (C - A) 0 ^ 2 ≤ _; linarith
      · show crossed (B - A) (C - A) 1 ^ 2 ≤ _; linarith
      · show crossed (B - A) (C - A) 2 ^ 2 ≤ _; linarith
    exact_mod_cast this
  have slack1 : normalSlack f ρ ≤ 1 := by unfold normalSlack; linarith
  have N2 : ∀ i, |N i| ≤ 2 := by
    intro i
    have t := abs_add_le ((N i : ℝ) - unit A B C i) (unit A B C i)
    rw [sub_add_cancel] at t
    have h := h3 i
    have s : ((normalSlack f ρ : ℚ) : ℝ) ≤ 1 := by exact_mod_cast slack1
    have u := unit1 i
    have : |(N i : ℝ)| ≤ 2 := by linarith
    exact_mod_cast this
  obtain ⟨e, he, ne⟩ := sub_near (f := f) hP hA bP bA (grow (l := 12) (by norm_num) s1 most hg)
  have R2 : 0 ≤ R ^ 2 := by positivity
  have R3 : 0 ≤ R ^ 3 := by positivity
  have R4 : 0 ≤ R ^ 4 := by positivity
  obtain ⟨r, hr, nr⟩ := dot_near c.height ne (exact_vec (f := f) h2 N2) (grow (l := 12) (by norm_num) (by linarith) most hg)
  obtain ⟨z, hz, -, -, bz⟩ := nr.mono (k' := 4) (M' := 12 * R) (T' := 11 * f.tiny) (by norm_num) (le_of_eq (by ring)) (le_of_eq (by ring))
  refine ⟨e, n, r, z, he, h1, hr, hz, ?_⟩
  have bz' : |(z : ℝ) - (dotted (P - A) N : ℚ)| ≤ ((((1 + f.u) ^ 4 - 1) * (12 * R) + (1 + f.u) ^ 4 * (11 * f.tiny) : ℚ) : ℝ) := by exact_mod_cast bz
  have term : ∀ i, |((P i - A i : ℚ) : ℝ) * (N i - unit A B C i)| ≤ 2 * R * (normalSlack f ρ : ℚ) := by
    intro i
    rw [abs_mul]
    have d : |P i - A i| ≤ 2 * R := by
      have := abs_sub (P i) (A i)
      have := bP i
      have := bA i
      linarith
    have d' : |((P i - A i : ℚ) : ℝ)| ≤ 2 * R := by exact_mod_cast d
    have R0 : (0 : ℝ) ≤ 2 * R := by exact_mod_cast (by linarith : 0 ≤ 2 * R)
    exact mul_le_mul d' (h3 i) (abs_nonneg _) R0
  have split : ((dotted (P - A) N : ℚ) : ℝ) - height A B C P = ((P 0 - A 0 : ℚ) : ℝ) * (N 0 - unit A B C 0) + ((P 1 - A 1 : ℚ) : ℝ) * (N 1 - unit A B C 1) +
      ((P 2 - A 2 : ℚ) : ℝ) * (N 2 - unit A B C 2) := by
    unfold height dotted
    rw [Fin.sum_univ_three]
    simp only [Pi.sub_apply]
    push_cast
    ring
  have t := abs_add_le ((z : ℝ) - (dotted (P - A) N : ℚ)) (((dotted (P - A) N : ℚ) : ℝ) - height A B C P)
  rw [sub_add_sub_cancel] at t
  have t1 := abs_add_le (((P 0 - A 0 : ℚ) : ℝ) * (N 0 - unit A B C 0) + ((P 1 - A 1 : ℚ) : ℝ) * (N 1 - unit A B C 1)) (((P 2 - A 2 : ℚ) : ℝ) * (N 2 - unit A B C 2))
  have t2 := abs_add_le (((P 0 - A 0 : ℚ) : ℝ) * (N 0 - unit A B C 0)) (((P 1 - A 1 : ℚ) : ℝ) * (N 1 - unit A B C 1))
  rw [← split] at t1
  have := term 0
  have := term 1
  have := term 2
  unfold heightSlack
  push_cast at bz' ⊢
  linarith

/-- C188: `coplanar` never takes a point for one of the triangle's plane that is off by epsilon and what rounding can hide, nor misses one that is nearer than epsilon by that
much. -/
theorem C188_coplanar (f : Format) (hf : Usual f) (h12 : 12 ≤ f.p) (c : NormalContractions) (hc : Contraction c.length) (p0 p1 p2 point : Store Number 3) (A B C P : Fin 3 → ℚ)
    (R ρ : ℚ) (hA : IsVec p0 A) (hB : IsVec p1 B) (hC : IsVec p2 C) (hP : IsVec point P) (bA : Within R A) (bB : Within R B) (bC : Within R C) (bP : Within R P)
    (hg : InRange f R) (hs : Steady f R ρ A B C) (eps : Number) (E : ℚ) (he : f.Has eps) (hE : value eps = some E) (E0 : 0 ≤ E) :
    ∃ b, coplanar f c p0 p1 p2 point eps = some b ∧ (b = true → |height A B C P| < E + (heightSlack f R ρ : ℚ)) ∧
      (|height A B C P| + (heightSlack f R ρ : ℚ) < E → b = true) := by
  obtain ⟨e, n, r, z, h1, h2, h3, h4, h5⟩ := height_near f hf h12 c hc p0 p1 p2 point A B C P R ρ hA hB hC hP bA bB bC bP hg hs
  have ha : Model.Approx.assumed eps = true := by
    rw [Proofs.Approx.assumed_iff]
    cases eps with
    | nan => simp [value] at hE
    | inf s => simp [value] at hE
    | fin s a =>
      simp only [value, Option.some.injEq] at hE
      show 0 ≤ signed s a
      rw [hE]; exact E0
  have hps : Model.Approx.promoteSmall f = f := by unfold Model.Approx.promoteSmall; rw [if_neg (by omega)]
  have t := abs_sub_abs_le_abs_sub (height A B C P) (z : ℝ)
  rw [abs_sub_comm] at t
  have t' := abs_sub_abs_le_abs_sub (z : ℝ) (height A B C P)
  refine ⟨Model.Approx.near f eps r (.fin false 0), ?_, ?_, ?_⟩
  · unfold coplanar
    simp only [h1, h2, h3, Option.bind_eq_bind, Option.bind_some, ha, if_true]
  · intro hb
    rw [Proofs.Approx.near_eq, hps] at hb
    obtain ⟨A', B', hA', hB', hc'⟩ := Proofs.Approx.test_sound (by omega) he hb
    rw [h4] at hA'
    have hB0 : B' = 0 := by simpa [value, signed] using hB'.symm
    obtain rfl : z = A' := Option.some.inj hA'
    subst hB0
    rcases hc' with rfl | ⟨E', hE', hlt⟩
    · simp [value] at hE
    · rw [hE] at hE'
      obtain rfl : E = E' := Option.some.inj hE'
      rw [zero_sub, abs_neg] at hlt
      have : |(z : ℝ)| < E := by exact_mod_cast hlt
      linarith
  · intro hlt
    rw [Proofs.Approx.near_eq, hps]
    refine Proofs.Approx.test_exact (by omega) (dot_has (by omega) h3) he ⟨z, 0, h4, by simp [value, signed], .inr ⟨E, hE, ?_⟩⟩
    rw [zero_sub, abs_neg]
    have : |(z : ℝ)| < E := by linarith
    exact_mod_cast this

/-- C188: a point is contained when it is in the plane and inside, as far as `coplanar` and the containment of points of the plane say. -/
theorem C188_contains (f : Format) (c : NormalContractions) (k : SideContractions) (p0 p1 p2 point : Store Number 3) (eps : Number) :
    containsPoint f c k p0 p1 p2 point eps = some true ↔ coplanar f c p0 p1 p2 point eps = some true ∧ containsCoplanar f k p0 p1 p2 point = some true := by
  unfold containsPoint
  rcases coplanar f c p0 p1 p2 point eps with _ | _ | _ <;> simp

theorem height_flat (A B C : Fin 3 → ℚ) (U W : ℚ) : height A B C (weighted A B C U W) = 0 := by
  unfold height
  rw [Fin.sum_univ_three, unit_eq, unit_eq, unit_eq]
  have : (weighted A B C U W 0 - A 0) * crossed (B - A) (C - A) 0 + (weighted A B C U W 1 - A 1) * crossed (B - A) (C - A) 1 +
      (weighted A B C U W 2 - A 2) * crossed (B - A) (C - A) 2 = 0 := by
    simp only [weighted, crossed, Pi.sub_apply, Matrix.cons_val_zero, Matrix.cons_val_one, Matrix.cons_val]
    ring
  rw [← mul_div_assoc, ← mul_div_assoc, ← mul_div_assoc, ← add_div, ← add_div, div_eq_zero_iff]
  left
  exact_mod_cast this

/-- C188: a point of the triangle that is clearly inside is contained. -/
theorem C188_found (f : Format) (hf : Usual f) (h12 : 12 ≤ f.p) (c : NormalContractions) (hc : Contraction c.length) (k : SideContractions) (p0 p1 p2 point : Store Number 3)
    (A B C P : Fin 3 → ℚ) (R ρ U W : ℚ) (hA : IsVec p0 A) (hB : IsVec p1 B) (hC : IsVec p2 C) (hP : IsVec point P) (bA : Within R A) (bB : Within R B) (bC : Within R C)
    (bP : Within R P) (hg : InRange f R) (hs : Steady f R ρ A B C) (eps : Number) (E : ℚ) (he : f.Has eps) (hE : value eps = some E) (hUW : P = weighted A B C U W)
    (hlt : heightSlack f R ρ < E) (h1 : sideSlack f R ≤ (1 - U - W) * U * gram A B C) (h2 : sideSlack f R ≤ (1 - U - W) * W * gram A B C) :
    containsPoint f c k p0 p1 p2 point eps = some true := by
  have hR : 0 ≤ R := (abs_nonneg _).trans (bA 0)
  have E0 : 0 ≤ E := by
    refine le_trans ?_ hlt.le
    have hu := u_pos f
    have ht := tiny_pos f
    have r0 := hs.1
    have : 0 ≤ (1 + f.u) ^ 4 - 1 := by have := one_le f 4; linarith
    unfold heightSlack normalSlack
    positivity
  obtain ⟨b, e, -, q⟩ := C188_coplanar f hf h12 c hc p0 p1 p2 point A B C P R ρ hA hB hC hP bA bB bC bP hg hs eps E he hE E0
  have flat : height A B C P = 0 := by rw [hUW]; exact height_flat A B C U W
  rw [C188_contains, e, q (by rw [flat, abs_zero, zero_add]; exact_mod_cast hlt)]
  exact ⟨rfl, FloatWeights.C187_found f hf k p0 p1 p2 point A B C P R U W hA hB hC hP bA bB bC bP hg hUW h1 h2⟩

/-- C188: a point that is contained is no further from the plane than epsilon and what rounding can hide; and if it is in the plane, it has no two weights (of the first corner and
of another) that are clearly of opposite signs. -/
theorem C188_contained_partial (f : Format) (hf : Usual f) (h12 : 12 ≤ f.p) (c : NormalContractions) (hc : Contraction c.length) (k : SideContractions)
    (p0 p1 p2 point : Store Number 3) (A B C P : Fin 3 → ℚ) (R ρ : ℚ) (hA : IsVec p0 A) (hB : IsVec p1 B) (hC : IsVec p2 C) (hP : IsVec point P) (bA : Within R A)
    (bB : Within R B) (bC : Within R C) (bP : Within R P) (hg : InRange f R) (hs : Steady f R ρ A B C) (eps : Number) (E : ℚ) (he : f.Has eps) (hE : value eps = some E)
    (E0 : 0 ≤ E) (h : containsPoint f c k p0 p1 p2 point eps = some true) : |height A B C P| < E + (heightSlack f R ρ : ℚ) ∧
      ∀ U W, P = weighted A B C U W → -sideSlack f R ≤ (1 - U - W) * U * gram A B C ∧ -sideSlack f R ≤ (1 - U - W) * W * gram A B C := by
  obtain ⟨h1, h2⟩ := (C188_contains f c k p0 p1 p2 point eps).1 h
  obtain ⟨b, e, q, -⟩ := C188_coplanar f hf h12 c hc p0 p1 p2 point A B C P R ρ hA hB hC hP bA bB bC bP hg hs eps E he hE E0
  rw [h1, Option.some.injEq] at e
  exact ⟨q e.symm, fun U W hUW => FloatWeights.C187_contained_partial f hf k p0 p1 p2 point A B C P R U W hA hB hC hP bA bB bC bP hg hUW h2⟩

/-- C188: the first corner is contained for every positive epsilon, and the others for every epsilon above what rounding can hide. -/
theorem C188_corners (f : Format) (hf : Usual f) (h12 : 12 ≤ f.p) (c : NormalContractions) (hc : Contraction c.length) (k : SideContractions) (p0 p1 p2 : Store Number 3)
    (A B C : Fin 3 → ℚ) (R ρ : ℚ) (hA : IsVec p0 A) (hB : IsVec p1 B) (hC : IsVec p2 C) (bA : Within R A) (bB : Within R B) (bC : Within R C) (hg : InRange f R)
    (hs : Steady f R ρ A B C) (eps : Number) (E : ℚ) (he : f.Has eps) (hE : value eps = some E) (E0 : 0 < E) :
    containsPoint f c k p0 p1 p2 p0 eps = some true ∧
      (heightSlack f R ρ < E → containsPoint f c k p0 p1 p2 p1 eps = some true ∧ containsPoint f c k p0 p1 p2 p2 eps = some true) := by
  obtain ⟨k0, k1, k2⟩ := FloatWeights.C187_corners f hf k p0 p1 p2 A B C R hA hB hC bA bB bC hg
  have g0 : 0 ≤ f.greatest := by have := Verif.Proofs.FloatLength.four_le hf; linarith
  refine ⟨(C188_contains f c k p0 p1 p2 p0 eps).2 ⟨?_, k0⟩, fun hlt => ⟨(C188_contains f c k p0 p1 p2 p1 eps).2 ⟨?_, k1⟩, (C188_contains f c k p0 p1 p2 p2 eps).2 ⟨?_, k2⟩⟩⟩
  · obtain ⟨n, N, h1, h2, -⟩ := C188_normal f hf h12 c hc p0 p1 p2 A B C R ρ hA hB hC bA bB bC hg hs
    obtain ⟨d, hd, d0⟩ := sub_self_vec g0 hA
    obtain ⟨r, hr, r0⟩ := zero_dot g0 c.height d0 h2 fun i => .inl rfl
    have ha : Model.Approx.assumed eps = true := by
      rw [Proofs.Approx.assumed_iff]
      cases eps with
      | nan => simp [value] at hE
      | inf s => simp [value] at hE
      | fin s a =>
        simp only [value, Option.some.injEq] at hE
        show 0 ≤ signed s a
        rw [hE]; exact E0.le
    have hps : Model.Approx.promoteSmall f = f := by unfold Model.Approx.promoteSmall; rw [if_neg (by omega)]
    unfold coplanar
    simp only [hd, h1, hr, Option.bind_eq_bind, Option.bind_some, ha, if_true, Option.some.injEq]
    rw [Proofs.Approx.near_eq, hps]
    exact Proofs.Approx.test_exact (by omega) (dot_has (by omega) hr) he ⟨0, 0, r0, by simp [value, signed], .inr ⟨E, hE, by simpa using E0⟩⟩
  · obtain ⟨b, e, -, q⟩ := C188_coplanar f hf h12 c hc p0 p1 p2 p1 A B C B R ρ hA hB hC hB bA bB bC bB hg hs eps E he hE E0.le
    have flat := height_flat A B C 1 0
    rw [show weighted A B C 1 0 = B by funext i; simp [weighted]] at flat
    rw [e, q (by rw [flat, abs_zero, zero_add]; exact_mod_cast hlt)]
  · obtain ⟨b, e, -, q⟩ := C188_coplanar f hf h12 c hc p0 p1 p2 p2 A B C C R ρ hA hB hC hC bA bB bC bC hg hs eps E he hE E0.le
    have flat := height_flat A B C 0 1
    rw [show weighted A B C 0 1 = C by funext i; simp [weighted]] at flat
    rw [e, q (by rw [flat, abs_zero, zero_add]; exact_mod_cast hlt)]

/-- Nothing is contracted. -/
def plainNormal : NormalContractions := ⟨((false, false), (false, false), (false, false)), plain, plain⟩

/-- C188 is violated by small triangles: their first corner is not in their plane, and they do not contain it, however large epsilon is. -/
theorem C188_small_violated : gram ![0, 0, 0] ![1 / 2 ^ 40, 0, 0] ![0, 1 / 2 ^ 40, 0] = 1 / 2 ^ 160 ∧
    parts <$> normal binary32 plainNormal (.three (num 0) (num 0) (num 0)) (.three (num (1 / 2 ^ 40)) (num 0) (num 0)) (.three (num 0) (num (1 / 2 ^ 40)) (num 0)) =
      some [.nan, .nan, .inf false] ∧
    ∀ eps, Model.Approx.assumed eps = true → containsPoint binary32 plainNormal plainSides (.three (num 0) (num 0) (num 0)) (.three (num (1 / 2 ^ 40)) (num 0) (num 0))
      (.three (num 0) (num (1 / 2 ^ 40)) (num 0)) (.three (num 0) (num 0) (num 0)) eps = some false := by
  refine ⟨by decide +kernel, by decide +kernel, fun eps h => ?_⟩
  have e : ((binary .sub binary32 (.three (num 0) (num 0) (num 0)) (.three (num 0) (num 0) (num 0))).bind fun d =>
      (normal binary32 plainNormal (.three (num 0) (num 0) (num 0)) (.three (num (1 / 2 ^ 40)) (num 0) (num 0)) (.three (num 0) (num (1 / 2 ^ 40)) (num 0))).bind fun n =>
        dot binary32 plain d n) = some .nan := by
    decide +kernel
  have : coplanar binary32 plainNormal (.three (num 0) (num 0) (num 0)) (.three (num (1 / 2 ^ 40)) (num 0) (num 0)) (.three (num 0) (num (1 / 2 ^ 40)) (num 0))
      (.three (num 0) (num 0) (num 0)) eps = some false := by
    have nan : Model.Approx.near binary32 eps .nan (.fin false 0) = false := by
      cases eps <;> rfl
    simp only [Option.bind_eq_some_iff] at e
    obtain ⟨d, hd, n, hn, hr⟩ := e
    unfold coplanar
    simp only [hd, hn, Option.bind_eq_bind, Option.bind_some, show plainNormal.height = plain from rfl, hr, h, if_true, nan]
  unfold containsPoint
  rw [this]
  rfl

/-- C188 is violated by large triangles: their normal is zero, and they contain points however far from their plane. -/
theorem C188_large_violated : gram ![0, 0, 0] ![2 ^ 40, 0, 0] ![0, 2 ^ 40, 0] = 2 ^ 160 ∧
    parts <$> normal binary32 plainNormal (.three (num 0) (num 0) (num 0)) (.three (num (2 ^ 40)) (num 0) (num 0)) (.three (num 0) (num (2 ^ 40)) (num 0)) =
      some [num 0, num 0, num 0] ∧
    containsPoint binary32 plainNormal plainSides (.three (num 0) (num 0) (num 0)) (.three (num (2 ^ 40)) (num 0) (num 0))
      (.three (num 0) (num (2 ^ 40)) (num 0)) (.three (num 1) (num 1) (num 1000)) (num (1 / 1024)) = some true :=
  ⟨by decide +kernel, by decide +kernel, by decide +kernel⟩

/-- A triangle that is neither thin nor small, and what rounding can change of the height of a point. -/
example : InRange binary32 4 ∧ Steady binary32 4 (3 / 2 ^ 20) ![0, 0, 0] ![4, 0, 0] ![0, 4, 0] ∧ heightSlack binary32 4 (3 / 2 ^ 20) < 1 / 1024 ∧
    sideSlack binary32 4 ≤ (1 - 1 / 4 - 1 / 2) * (1 / 4) * gram ![0, 0, 0] ![4, 0, 0] ![0, 4, 0] ∧
    binary32.Has (num (1 / 1024)) ∧ containsPoint binary32 plainNormal plainSides (.three (num 0) (num 0) (num 0)) (.three (num 4) (num 0) (num 0))
      (.three (num 0) (num 4) (num 0)) (.three (num 1) (num 2) (num 0)) (num (1 / 1024)) = some true ∧
    containsPoint binary32 plainNormal plainSides (.three (num 0) (num 0) (num 0)) (.three (num 4) (num 0) (num 0))
      (.three (num 0) (num 4) (num 0)) (.three (num 1) (num 2) (num 1)) (num (1 / 1024)) = some false := by
  refine ⟨?_, ?_, by decide +kernel, by decide +kernel, ?_, by decide +kernel, by decide +kernel⟩
  · unfold InRange; decide +kernel
  · unfold Steady; decide +kernel
  · exact has32 (m := 1) (k := -10) (by norm_num) (by norm_num) (by norm_num [zpow_neg]) (by decide +kernel)

end Verif.Props.FloatNormal
