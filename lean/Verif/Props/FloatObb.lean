import Verif.Proofs.FloatObb
import Verif.Props.FloatPlane
/-!
# C190: points and oriented bounding boxes of floating-point numbers
-/
namespace Verif.Props.FloatObb
open Verif.Spec.IeeeArith Verif.Spec.FloatFormat Verif.Spec.ObbRounding Verif.Spec.TriangleRounding
open Verif.Model.VectorStore hiding construct
open Verif.Model.FloatVector Verif.Model.FloatObb
open Verif.Proofs.FloatVector Verif.Proofs.FloatPlane Verif.Proofs.FloatObb Verif.Proofs.FloatError Verif.Proofs.FloatTriangle
open Verif.Props.FloatVector (num)
open Verif.Props.FloatPlane (plain)
open Verif.Props.FloatCross (are3)

/-- Nothing overflows when the distances along the axes are computed. -/
def InRange (f : Format) (R S : ℚ) : Prop := (1 + f.u) * (2 * R + f.tiny) ≤ f.greatest ∧ most f R S ≤ f.greatest

/-- C190: a point that `contains` accepts is between the sides of the box but for what rounding can hide; and one that is between the sides by as much is accepted. This holds of any
axes. -/
theorem C190_contains (f : Format) (hp : 1 ≤ f.p) (k : Fin 3 → Store Bool 3) (b : Obb) (C : Fin 3 → ℚ) (A : Fin 3 → Fin 3 → ℚ) (E : Fin 3 → ℚ) (hb : IsObb b C A E)
    (p : Store Number 3) (P : Fin 3 → ℚ) (hP : IsVec p P) (R S : ℚ) (bC : Within R C) (bP : Within R P) (bA : ∀ j, Within S (A j)) (hg : InRange f R S) :
    ∃ a, contains f k b p = some a ∧ (a = true → Between C A (fun j => E j + slack f R S) P) ∧ (Between C A (fun j => E j - slack f R S) P → a = true) := by
  obtain ⟨a, h1, h2, h3⟩ := contains_near hp k hb hP bC bP bA hg.1 hg.2
  exact ⟨a, h1, h2, fun h => h3 fun j => by linarith [h j]⟩

/-- C190: the box is what is between its sides, if its axes are orthonormal. -/
theorem C190_box (C : Fin 3 → ℚ) (A : Fin 3 → Fin 3 → ℚ) (E P : Fin 3 → ℚ) (hA : Orthonormal A) : InBox C A E P ↔ Between C A E P := by
  have n : Nearly 0 A := fun i j => by rw [hA i j, sub_self, abs_zero]
  have same : ∀ T j, along (A j) (reached C A T - C) = T j := fun T j => by
    have := gram_bound n T j
    rw [zero_mul, ← gram_apply A T C j] at this
    linarith [abs_nonpos_iff.1 this]
  constructor
  · rintro ⟨T, hT, rfl⟩ j
    rw [same]
    exact hT j
  · intro h
    obtain ⟨T, rfl⟩ := solvable (by norm_num) n C P
    exact ⟨T, fun j => by rw [← same T j]; exact h j, rfl⟩

/-- C190: a point that `contains` accepts is in the box whose extents are larger by what rounding, of the point's coordinates and of the axes, can hide. -/
theorem C190_sound (f : Format) (hp : 1 ≤ f.p) (k : Fin 3 → Store Bool 3) (b : Obb) (C : Fin 3 → ℚ) (A : Fin 3 → Fin 3 → ℚ) (E : Fin 3 → ℚ) (hb : IsObb b C A E)
    (p : Store Number 3) (P : Fin 3 → ℚ) (hP : IsVec p P) (R S : ℚ) (bC : Within R C) (bP : Within R P) (bA : ∀ j, Within S (A j)) (hg : InRange f R S)
    (ω D : ℚ) (hA : Nearly ω A) (hω : 3 * ω < 1) (hD : ∀ j, E j + slack f R S ≤ D) (h : contains f k b p = some true) :
    InBox C A (fun j => E j + slack f R S + ω * (3 * D / (1 - 3 * ω))) P := by
  obtain ⟨a, h1, h2, -⟩ := C190_contains f hp k b C A E hb p P hP R S bC bP bA hg
  rw [h, Option.some.injEq] at h1
  have h3 := h2 h1.symm
  have w0 : 0 ≤ ω := (abs_nonneg _).trans (hA 0 0)
  obtain ⟨T, rfl⟩ := solvable hω hA C P
  have g : ∀ j, |along (A j) (reached C A T - C) - T j| ≤ ω * (|T 0| + |T 1| + |T 2|) := fun j => by
    rw [gram_apply]
    exact gram_bound hA T j
  have s := solve_bound hω w0 g (D := D) fun j => (h3 j).trans (hD j)
  refine ⟨T, fun j => ?_, rfl⟩
  have t := abs_sub_abs_le_abs_sub (T j) (along (A j) (reached C A T - C))
  rw [abs_sub_comm] at t
  have := mul_le_mul_of_nonneg_left s w0
  linarith [g j, h3 j]

/-- C190: a point that is in the box whose extents are smaller by what rounding can hide is accepted. -/
theorem C190_found (f : Format) (hp : 1 ≤ f.p) (k : Fin 3 → Store Bool 3) (b : Obb) (C : Fin 3 → ℚ) (A : Fin 3 → Fin 3 → ℚ) (E : Fin 3 → ℚ) (hb : IsObb b C A E)
    (p : Store Number 3) (P : Fin 3 → ℚ) (hP : IsVec p P) (R S : ℚ) (bC : Within R C) (bP : Within R P) (bA : ∀ j, Within S (A j)) (hg : InRange f R S)
    (ω : ℚ) (hA : Nearly ω A) (E' : Fin 3 → ℚ) (hE : ∀ j, E' j + ω * (E' 0 + E' 1 + E' 2) + slack f R S ≤ E j) (h : InBox C A E' P) : contains f k b p = some true := by
  obtain ⟨a, h1, -, h2⟩ := C190_contains f hp k b C A E hb p P hP R S bC bP bA hg
  rw [h1, Option.some.injEq]
  obtain ⟨T, hT, rfl⟩ := h
  have w0 : 0 ≤ ω := (abs_nonneg _).trans (hA 0 0)
  refine h2 fun j => ?_
  have g := gram_bound hA T j
  rw [← gram_apply A T C j] at g
  have t := abs_sub_abs_le_abs_sub (along (A j) (reached C A T - C)) (T j)
  have := mul_le_mul_of_nonneg_left (add_le_add (add_le_add (hT 0) (hT 1)) (hT 2)) w0
  show |along (A j) (reached C A T - C)| ≤ E j - slack f R S
  linarith [hT j, hE j]

/-- What is between the sides is convex. -/
theorem between_convex {C : Fin 3 → ℚ} {A : Fin 3 → Fin 3 → ℚ} {E P Q : Fin 3 → ℚ} (hP : Between C A E P) (hQ : Between C A E Q) {t : ℚ} (t0 : 0 ≤ t) (t1 : t ≤ 1) :
    Between C A E fun i => (1 - t) * P i + t * Q i := by
  intro j
  have e : along (A j) ((fun i => (1 - t) * P i + t * Q i) - C) = (1 - t) * along (A j) (P - C) + t * along (A j) (Q - C) := by
    unfold along
    simp only [Pi.sub_apply, Fin.sum_univ_three]
    ring
  rw [e]
  have a := abs_add_le ((1 - t) * along (A j) (P - C)) (t * along (A j) (Q - C))
  rw [abs_mul, abs_mul, abs_of_nonneg t0, abs_of_nonneg (by linarith : 0 ≤ 1 - t)] at a
  have b := mul_le_mul_of_nonneg_left (hP j) (by linarith : 0 ≤ 1 - t)
  have c := mul_le_mul_of_nonneg_left (hQ j) t0
  linarith

/-- C190: every point of a segment that is accepted is between the sides but for rounding; and a segment whose ends are between them by as much is accepted. -/
theorem C190_segment (f : Format) (hp : 1 ≤ f.p) (k : Fin 3 → Store Bool 3) (b : Obb) (C : Fin 3 → ℚ) (A : Fin 3 → Fin 3 → ℚ) (E : Fin 3 → ℚ) (hb : IsObb b C A E)
    (p q : Store Number 3) (P Q : Fin 3 → ℚ) (hP : IsVec p P) (hQ : IsVec q Q) (R S : ℚ) (bC : Within R C) (bP : Within R P) (bQ : Within R Q) (bA : ∀ j, Within S (A j))
    (hg : InRange f R S) : ∃ a, containsSegment f k b p q = some a ∧
      (a = true → ∀ t, 0 ≤ t → t ≤ 1 → Between C A (fun j => E j + slack f R S) fun i => (1 - t) * P i + t * Q i) ∧
      (Between C A (fun j => E j - slack f R S) P → Between C A (fun j => E j - slack f R S) Q → a = true) := by
  obtain ⟨a, h1, h2, h3⟩ := C190_contains f hp k b C A E hb p P hP R S bC bP bA hg
  obtain ⟨a', h1', h2', h3'⟩ := C190_contains f hp k b C A E hb q Q hQ R S bC bQ bA hg
  refine ⟨a && a', ?_, fun h t t0 t1 => ?_, fun h h' => by rw [h3 h, h3' h']; rfl⟩
  · unfold containsSegment
    simp only [h1, h1', Option.bind_eq_bind, Option.bind_some]
    cases a <;> rfl
  · rw [Bool.and_eq_true] at h
    exact between_convex (h2 h.1) (h2' h.2) t0 t1

/-- C190: every point of a triangle that is accepted is between the sides but for rounding; and a triangle whose corners are between them by as much is accepted. -/
theorem C190_triangle (f : Format) (hp : 1 ≤ f.p) (k : Fin 3 → Store Bool 3) (b : Obb) (C : Fin 3 → ℚ) (A : Fin 3 → Fin 3 → ℚ) (E : Fin 3 → ℚ) (hb : IsObb b C A E)
    (p q r : Store Number 3) (P Q V : Fin 3 → ℚ) (hP : IsVec p P) (hQ : IsVec q Q) (hV : IsVec r V) (R S : ℚ) (bC : Within R C) (bP : Within R P) (bQ : Within R Q)
    (bV : Within R V) (bA : ∀ j, Within S (A j)) (hg : InRange f R S) : ∃ a, containsTriangle f k b p q r = some a ∧
      (a = true → ∀ t s, 0 ≤ t → t ≤ 1 → 0 ≤ s → s ≤ 1 → Between C A (fun j => E j + slack f R S) fun i => (1 - t) * P i + t * ((1 - s) * Q i + s * V i)) ∧
      (Between C A (fun j => E j - slack f R S) P → Between C A (fun j => E j - slack f R S) Q → Between C A (fun j => E j - slack f R S) V → a = true) := by
  obtain ⟨a, h1, h2, h3⟩ := C190_contains f hp k b C A E hb p P hP R S bC bP bA hg
  obtain ⟨a', h1', h2', h3'⟩ := C190_contains f hp k b C A E hb q Q hQ R S bC bQ bA hg
  obtain ⟨a'', h1'', h2'', h3''⟩ := C190_contains f hp k b C A E hb r V hV R S bC bV bA hg
  refine ⟨a && (a' && a''), ?_, fun h t s t0 t1 s0 s1 => ?_, fun h h' h'' => by rw [h3 h, h3' h', h3'' h'']; rfl⟩
  · unfold containsTriangle
    simp only [h1, h1', h1'', Option.bind_eq_bind, Option.bind_some]
    cases a <;> cases a' <;> rfl
  · simp only [Bool.and_eq_true] at h
    exact between_convex (h2 h.1) (between_convex (h2' h.2.1) (h2'' h.2.2) s0 s1) t0 t1

/-- C190: a range of points is accepted if and only if it is not empty and each of its points is. -/
theorem C190_range (f : Format) (k : Fin 3 → Store Bool 3) (b : Obb) (ps : List (Store Number 3)) (h : ∀ p ∈ ps, ∃ a, contains f k b p = some a) :
    ∃ a, containsAll f k b ps = some a ∧ (a = true ↔ ps ≠ [] ∧ ∀ p ∈ ps, contains f k b p = some true) := by
  have every : ∀ ps : List (Store Number 3), (∀ p ∈ ps, ∃ a, contains f k b p = some a) →
      ∃ a, everyPoint f k b ps = some a ∧ (a = true ↔ ∀ p ∈ ps, contains f k b p = some true) := by
    intro ps
    induction ps with
    | nil => exact fun _ => ⟨true, rfl, by simp⟩
    | cons p ps ih =>
      intro h
      obtain ⟨a, ha⟩ := h p (by simp)
      obtain ⟨a', ha', hi⟩ := ih fun q hq => h q (by simp [hq])
      refine ⟨a && a', ?_, ?_⟩
      · unfold everyPoint
        simp only [ha, ha', Option.bind_eq_bind, Option.bind_some]
        cases a <;> rfl
      · rw [Bool.and_eq_true, hi]
        simp [ha]
  unfold containsAll
  cases ps with
  | nil => exact ⟨false, rfl, by simp⟩
  | cons p ps =>
    obtain ⟨a, ha, hi⟩ := every (p :: ps) h
    exact ⟨a, ha, by rw [hi]; simp⟩

/-- C190: the centre is contained, whatever the axes are, if no extent is negative. -/
theorem C190_center (f : Format) (hp : 1 ≤ f.p) (h0 : 0 ≤ f.greatest) (k : Fin 3 → Store Bool 3) (b : Obb) (C : Fin 3 → ℚ) (A : Fin 3 → Fin 3 → ℚ) (E : Fin 3 → ℚ)
    (hb : IsObb b C A E) (hE : ∀ j, 0 ≤ E j) : contains f k b b.center = some true := by
  obtain ⟨d, hd, d0⟩ := Proofs.FloatWeights.sub_self_vec h0 hb.center
  have one : ∀ (c : Store Bool 3) j, within f c b d j = some true := fun c j => by
    obtain ⟨r, hr, r0⟩ := Proofs.FloatWeights.zero_dot h0 c d0 (hb.axes j) fun i => .inl rfl
    rw [within, hr, Option.map_some, Option.some.injEq]
    refine (Proofs.FloatBox.atLeast_values (component hb.extents j) (dot_abs hr r0 hp)).2 ?_
    rw [abs_zero]
    exact hE j
  unfold contains
  simp only [hd, one, Option.bind_eq_bind, Option.bind_some, if_true]

/-- C190: the closest point that is found is `nearest` but for rounding. -/
theorem C190_closest (f : Format) (k l : Fin 3 → Store Bool 3) (b : Obb) (C : Fin 3 → ℚ) (A : Fin 3 → Fin 3 → ℚ) (E : Fin 3 → ℚ) (hb : IsObb b C A E) (hE : ∀ j, 0 ≤ E j)
    (p : Store Number 3) (P : Fin 3 → ℚ) (hP : IsVec p P) (R S : ℚ) (bC : Within R C) (bP : Within R P) (bA : ∀ j, Within S (A j)) (hg : InRange f R S)
    (hn : nearestMost f R S ≤ f.greatest) :
    ∃ q Q, closestPoint f k l b p = some q ∧ IsVec q Q ∧ Within (nearestSlack f R S) (Q - nearest C A E P) := by
  obtain ⟨adj, e, h⟩ := adj_near hb hP bC bP bA hg.1 hg.2
  obtain ⟨r0, d0, n0⟩ := h (k 0) 0
  obtain ⟨r1, d1, n1⟩ := h (k 1) 1
  obtain ⟨r2, d2, n2⟩ := h (k 2) 2
  have w := walk_near l hb bC bA (t := ![Model.CoreUtils.clamp (fun a b => Model.Kahan.less a b) r0 (Model.FloatSphere.components b.extents 0).negate (Model.FloatSphere.components b.extents 0),
      Model.CoreUtils.clamp (fun a b => Model.Kahan.less a b) r1 (Model.FloatSphere.components b.extents 1).negate (Model.FloatSphere.components b.extents 1),
      Model.CoreUtils.clamp (fun a b => Model.Kahan.less a b) r2 (Model.FloatSphere.components b.extents 2).negate (Model.FloatSphere.components b.extents 2)])
    (τ := fun j => max (-E j) (min (E j) (along (A j) (P - C)))) (fun j => by
      fin_cases j
      · exact clamp_near n0 (component hb.extents 0) (hE 0)
      · exact clamp_near n1 (component hb.extents 1) (hE 1)
      · exact clamp_near n2 (component hb.extents 2) (hE 2)) (by
      refine le_of_eq_of_le ?_ hn
      unfold nearestMost
      ring)
  obtain ⟨x, y, z, ew, ⟨X, hx, -, -, ex⟩, ⟨Y, hy, -, -, ey⟩, ⟨Z, hz, -, -, ez⟩⟩ := w
  have same : ((1 + f.u) ^ (4 + 4) - 1) * (R + 3 * (S * (6 * R * S))) + (1 + f.u) ^ (4 + 4) * (3 * (S * ((3 * S + 5) * f.tiny) + f.tiny) + 3 * f.tiny) = nearestSlack f R S := by
    unfold nearestSlack
    ring
  rw [same] at ex ey ez
  refine ⟨_, ![X, Y, Z], by unfold closestPoint; simp only [e, d0, d1, d2, Option.bind_eq_bind, Option.bind_some]; rfl, ?_, ?_⟩
  · rw [ew]
    simp [IsVec, Verif.Spec.Representable.Are, parts, hx, hy, hz]
  · intro i
    fin_cases i
    · exact ex
    · exact ey
    · exact ez

/-- C190: `nearest` is in the box, and no point of it is closer, if the axes are orthonormal. -/
theorem C190_nearest (C : Fin 3 → ℚ) (A : Fin 3 → Fin 3 → ℚ) (E P : Fin 3 → ℚ) (hE : ∀ j, 0 ≤ E j) : InBox C A E (nearest C A E P) ∧
    (Orthonormal A → ∀ Q, InBox C A E Q → apart (nearest C A E P) P ≤ apart Q P) := by
  refine ⟨⟨_, fun j => abs_le.2 ⟨le_max_left _ _, max_le (by linarith [hE j]) (min_le_left _ _)⟩, rfl⟩, fun hA Q hQ => ?_⟩
  have n : Nearly 0 A := fun i j => by rw [hA i j, sub_self, abs_zero]
  obtain ⟨U, hU⟩ := solvable (by norm_num) n C P
  have d : ∀ j, along (A j) (P - C) = U j := fun j => by
    have := gram_bound n U j
    rw [zero_mul, ← gram_apply A U C j, ← hU] at this
    linarith [abs_nonpos_iff.1 this]
  obtain ⟨T, hT, rfl⟩ := hQ
  unfold nearest
  simp only [d]
  rw [hU, apart_eq hA, apart_eq hA]
  exact Finset.sum_le_sum fun j _ => clamp_best (hT j)

/-- C190: each corner is where its name says but for rounding. -/
theorem C190_corner (f : Format) (l : Fin 3 → Store Bool 3) (b : Obb) (C : Fin 3 → ℚ) (A : Fin 3 → Fin 3 → ℚ) (E : Fin 3 → ℚ) (hb : IsObb b C A E) (R S L : ℚ) (bC : Within R C)
    (bA : ∀ j, Within S (A j)) (bE : Within L E) (hg : cornerMost f R S L ≤ f.greatest) (up : Fin 3 → Bool) :
    ∃ Q, IsVec (corner f l b up) Q ∧ Within (cornerSlack f R S L) (Q - reached C A fun j => if up j then E j else -E j) := by
  have w := walk_near (k := 0) (M := L) (T := 0) l hb bC bA (t := fun j => if up j then Model.FloatSphere.components b.extents j else (Model.FloatSphere.components b.extents j).negate)
    (τ := fun j => if up j then E j else -E j) (fun j => by
      have n := (Near.exact f (component hb.extents j)).mono le_rfl (bE j) le_rfl
      by_cases u : up j = true
      · simp only [u, if_true]
        exact n
      · simp only [u]
        exact n.negate) (by
      refine le_of_eq_of_le ?_ hg
      unfold cornerMost
      ring)
  obtain ⟨x, y, z, ew, ⟨X, hx, -, -, ex⟩, ⟨Y, hy, -, -, ey⟩, ⟨Z, hz, -, -, ez⟩⟩ := w
  have same : ((1 + f.u) ^ (0 + 4) - 1) * (R + 3 * (S * L)) + (1 + f.u) ^ (0 + 4) * (3 * (S * 0 + f.tiny) + 3 * f.tiny) = cornerSlack f R S L := by
    unfold cornerSlack
    ring
  rw [same] at ex ey ez
  refine ⟨![X, Y, Z], ?_, ?_⟩
  · unfold corner
    rw [ew]
    simp [IsVec, Verif.Spec.Representable.Are, parts, hx, hy, hz]
  · intro i
    fin_cases i
    · exact ex
    · exact ey
    · exact ez

/-- Nothing is contracted. -/
def plains : Fin 3 → Store Bool 3 := fun _ => plain

/-- A box around the origin, all of whose extents are one, turned by the angle whose cosine and sine are `0.6f` and `0.8f`. -/
def turned : Obb := ⟨.three (num 0) (num 0) (num 0), .three (num 1) (num 1) (num 1),
  ![.three (num (5033165 / 8388608)) (num (13421773 / 16777216)) (num 0), .three (num (-(13421773 / 16777216))) (num (5033165 / 8388608)) (num 0), .three (num 0) (num 0) (num 1)]⟩

/-- C190: the margin is needed: a box does not contain its own corner, nor the point that it says is the closest of it. -/
theorem C190_margin_needed : contains binary32 plains turned (corner binary32 plains turned fun _ => true) = some false ∧
    (closestPoint binary32 plains plains turned (.three (num 20) (num 0) (num 0))).bind (contains binary32 plains turned) = some false := by
  refine ⟨by decide +kernel, by decide +kernel⟩

/-- A box around a point that is far from the origin. -/
def far : Obb := ⟨.three (num (-(2 ^ 127))) (num 0) (num 0), .three (num 1) (num 1) (num 1), ![.three (num 1) (num 0) (num 0), .three (num 0) (num 1) (num 0), .three (num 0) (num 0) (num 1)]⟩

/-- C190: the range is needed: of a point so far away that the difference overflows, the closest point of the box is not a point. -/
theorem C190_range_needed : parts <$> closestPoint binary32 plains plains far (.three (num (2 ^ 127)) (num 0) (num 0)) = some [.nan, .nan, .nan] := by decide +kernel

/-- The turned box, and a point in it, meet the hypotheses. -/
example : IsObb turned ![0, 0, 0] ![![5033165 / 8388608, 13421773 / 16777216, 0], ![-(13421773 / 16777216), 5033165 / 8388608, 0], ![0, 0, 1]] ![1, 1, 1] ∧
    IsVec (.three (num 1) (num (1 / 2)) (num (-(1 / 2)))) ![1, 1 / 2, -(1 / 2)] ∧
    contains binary32 plains turned (.three (num 1) (num (1 / 2)) (num (-(1 / 2)))) = some true ∧ contains binary32 plains turned (.three (num 1) (num 1) (num 0)) = some false := by
  refine ⟨⟨by unfold IsVec; decide +kernel, fun j => by fin_cases j <;> (unfold IsVec; decide +kernel), by unfold IsVec; decide +kernel⟩, by unfold IsVec; decide +kernel, by decide +kernel,
    by decide +kernel⟩

example : Nearly (1 / 2 ^ 20) ![![5033165 / 8388608, 13421773 / 16777216, 0], ![-(13421773 / 16777216), 5033165 / 8388608, 0], ![0, 0, 1]] ∧ InRange binary32 2 1 ∧
    nearestMost binary32 2 1 ≤ binary32.greatest ∧ cornerMost binary32 2 1 1 ≤ binary32.greatest ∧ slack binary32 2 1 ≤ 1 / 2 ^ 18 ∧ nearestSlack binary32 2 1 ≤ 1 / 2 ^ 15 ∧
    cornerSlack binary32 2 1 1 ≤ 1 / 2 ^ 19 ∧
    Between ![0, 0, 0] ![![5033165 / 8388608, 13421773 / 16777216, 0], ![-(13421773 / 16777216), 5033165 / 8388608, 0], ![0, 0, 1]] (fun j => ![1, 1, 1] j - slack binary32 2 1)
      ![5 / 8, 1 / 2, -(1 / 2)] ∧ Orthonormal ![![0, 1, 0], ![-1, 0, 0], ![0, 0, 1]] := by
  refine ⟨?_, ⟨?_, ?_⟩, ?_, ?_, ?_, ?_, ?_, ?_, ?_⟩
  · unfold Nearly; decide +kernel
  · decide +kernel
  · decide +kernel
  · decide +kernel
  · decide +kernel
  · decide +kernel
  · decide +kernel
  · decide +kernel
  · unfold Between; decide +kernel
  · unfold Orthonormal; decide +kernel

end Verif.Props.FloatObb
