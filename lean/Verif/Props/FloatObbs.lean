import Verif.Proofs.FloatObbs
import Verif.Props.FloatObb
import Verif.Props.FloatBox
/-!
# C191: oriented bounding boxes of floating-point numbers, with spheres and with boxes that are not turned
-/
namespace Verif.Props.FloatObbs
open Verif.Spec.IeeeArith Verif.Spec.FloatFormat Verif.Spec.ObbRounding
open Verif.Spec.TriangleRounding (Within)
open Verif.Model.VectorStore hiding construct
open Verif.Model.FloatVector Verif.Model.FloatObb Verif.Model.FloatObbs
open Verif.Proofs.FloatVector Verif.Proofs.FloatPlane Verif.Proofs.FloatObb Verif.Proofs.FloatObbs
open Verif.Props.FloatVector (num)
open Verif.Props.FloatSphere (IsPoint sqDist)
open Verif.Props.FloatBox (BoxOf)
open Verif.Props.FloatObb (InRange turned plains)
open Verif.Props.FloatPlane (plain)

theorem intersects_eq {f : Format} {k l : Fin 3 → Store Bool 3} {m : Store Bool 3} {b : Obb} {s : Model.FloatSphere.Sphere} {q : Store Number 3}
    (h : closestPoint f k l b s.center = some q) : intersectsSphere f k l m b s = Model.FloatSphere.contains f m s q := by
  unfold intersectsSphere Model.FloatSphere.contains
  rw [h, Option.bind_eq_bind, Option.bind_some, Proofs.FloatSpheres.dist_swap]

/-- C191: if an oriented box and a sphere intersect, the sphere, a little larger, has a point that is a point of the box but for the rounding of its coordinates. The square of the radius
must not overflow. -/
theorem C191_sphere_sound (f : Format) (hp : 1 ≤ f.p) (k l : Fin 3 → Store Bool 3) (m : Store Bool 3) (b : Obb) (C : Fin 3 → ℚ) (A : Fin 3 → Fin 3 → ℚ) (E : Fin 3 → ℚ)
    (hb : IsObb b C A E) (hE : ∀ j, 0 ≤ E j) (s : Model.FloatSphere.Sphere) (O : Fin 3 → ℚ) (r : ℚ) (hO : IsPoint f s.center O) (hr : value s.radius = some r) (R S : ℚ)
    (bC : Within R C) (bO : Within R O) (bA : ∀ j, Within S (A j)) (hg : InRange f R S) (hn : nearestMost f R S ≤ f.greatest) (hr2 : (1 + f.u) * r ^ 2 + f.tiny ≤ f.greatest)
    (h : intersectsSphere f k l m b s = some true) :
    ∃ N Q, InBox C A E N ∧ Within (nearestSlack f R S) (Q - N) ∧ (1 - f.u) ^ 5 * sqDist Q O ≤ (1 + f.u) * r ^ 2 + 6 * f.tiny := by
  obtain ⟨q, Q, h1, h2, h3⟩ := FloatObb.C190_closest f k l b C A E hb hE s.center O hO.2 R S bC bO bA hg hn
  rw [intersects_eq h1] at h
  exact ⟨_, Q, (FloatObb.C190_nearest C A E O hE).1, h3, FloatSphere.C175_sound_partial f hp m s O r hO hr q Q ⟨closest_has hp h1, h2⟩ hr2 h⟩

/-- C191: an oriented box and a sphere intersect if everything that rounding can make of the point of the box that is nearest to the centre is in the sphere, a little smaller. -/
theorem C191_sphere_found (f : Format) (hp : 1 ≤ f.p) (h2 : 2 ≤ f.greatest) (k l : Fin 3 → Store Bool 3) (m : Store Bool 3) (b : Obb) (C : Fin 3 → ℚ) (A : Fin 3 → Fin 3 → ℚ)
    (E : Fin 3 → ℚ) (hb : IsObb b C A E) (hE : ∀ j, 0 ≤ E j) (s : Model.FloatSphere.Sphere) (O : Fin 3 → ℚ) (r : ℚ) (hO : IsPoint f s.center O) (hr : value s.radius = some r)
    (R S : ℚ) (bC : Within R C) (bO : Within R O) (bA : ∀ j, Within S (A j)) (hg : InRange f R S) (hn : nearestMost f R S ≤ f.greatest)
    (h : ∀ Q, Within (nearestSlack f R S) (Q - nearest C A E O) → (1 + f.u) ^ 5 * sqDist Q O + 6 * (1 + f.u) ^ 2 * f.tiny ≤ (1 - f.u) * r ^ 2) :
    intersectsSphere f k l m b s = some true := by
  obtain ⟨q, Q, h1, h3, h4⟩ := FloatObb.C190_closest f k l b C A E hb hE s.center O hO.2 R S bC bO bA hg hn
  rw [intersects_eq h1]
  exact FloatSphere.C175_complete f hp h2 m s O r hO hr q Q ⟨closest_has hp h1, h3⟩ (h Q h4)

/-- C191: an oriented box and a sphere intersect if the point of the box that is nearest to the centre is in the sphere by more than rounding can hide: `d` bounds its distance along each
coordinate axis. -/
theorem C191_sphere_near (f : Format) (hp : 1 ≤ f.p) (h2 : 2 ≤ f.greatest) (k l : Fin 3 → Store Bool 3) (m : Store Bool 3) (b : Obb) (C : Fin 3 → ℚ) (A : Fin 3 → Fin 3 → ℚ)
    (E : Fin 3 → ℚ) (hb : IsObb b C A E) (hE : ∀ j, 0 ≤ E j) (s : Model.FloatSphere.Sphere) (O : Fin 3 → ℚ) (r : ℚ) (hO : IsPoint f s.center O) (hr : value s.radius = some r)
    (R S : ℚ) (bC : Within R C) (bO : Within R O) (bA : ∀ j, Within S (A j)) (hg : InRange f R S) (hn : nearestMost f R S ≤ f.greatest) (d : ℚ)
    (hd : ∀ i, |nearest C A E O i - O i| ≤ d) (h : (1 + f.u) ^ 5 * (3 * (d + nearestSlack f R S) ^ 2) + 6 * (1 + f.u) ^ 2 * f.tiny ≤ (1 - f.u) * r ^ 2) :
    intersectsSphere f k l m b s = some true := by
  refine C191_sphere_found f hp h2 k l m b C A E hb hE s O r hO hr R S bC bO bA hg hn fun Q hQ => le_trans ?_ h
  have one : ∀ i, (Q i - O i) ^ 2 ≤ (d + nearestSlack f R S) ^ 2 := fun i => by
    have t := abs_add_le (Q i - nearest C A E O i) (nearest C A E O i - O i)
    rw [sub_add_sub_cancel] at t
    have := hQ i
    rw [Pi.sub_apply] at this
    exact sq_le_sq' (by linarith [(abs_le.1 (le_refl |Q i - O i|)).1, hd i]) (by linarith [le_abs_self (Q i - O i), hd i])
  have sum : sqDist Q O ≤ 3 * (d + nearestSlack f R S) ^ 2 := by
    unfold sqDist
    rw [Fin.sum_univ_three]
    linarith [one 0, one 1, one 2]
  have := mul_le_mul_of_nonneg_left sum (by have := one_le f 5; linarith : (0 : ℚ) ≤ (1 + f.u) ^ 5)
  linarith

/-- C191: if a box contains an oriented one, every point of the oriented box is in the box but for the rounding of the corners and of their distances. -/
theorem C191_inside_sound (f : Format) (hp : 1 ≤ f.p) (l : (Fin 3 → Bool) → Fin 3 → Store Bool 3) (a : Model.FloatBox.Box) (D F : Fin 3 → ℚ) (ha : BoxOf f a D F) (b : Obb)
    (C : Fin 3 → ℚ) (A : Fin 3 → Fin 3 → ℚ) (E : Fin 3 → ℚ) (hb : IsObb b C A E) (R S L : ℚ) (bC : Within R C) (bA : ∀ j, Within S (A j)) (bE : Within L E)
    (hg : cornerMost f R S L ≤ f.greatest) (u1 : f.u < 1) (h : boxContains f l a b = true) (P : Fin 3 → ℚ) (hP : InBox C A E P) (i : Fin 3) :
    |P i - D i| ≤ F i / (1 - f.u) + cornerSlack f R S L := by
  have each : ∀ up : Fin 3 → Bool, |(reached C A fun j => if up j then E j else -E j) i - D i| ≤ F i / (1 - f.u) + cornerSlack f R S L := fun up => by
    obtain ⟨Q, q1, q2⟩ := FloatObb.C190_corner f (l up) b C A E hb R S L bC bA bE hg up
    have c := List.all_eq_true.1 h up (order_all up)
    have s := (FloatBox.C166_contains f hp a D F ha _ Q (corner_has hp (l up) b up) (component q1)).2 c i
    have m : |Q i - D i| ≤ F i / (1 - f.u) := by
      rw [le_div_iff₀ (by linarith)]
      have : |Q i - D i| ≤ F i + f.u * |Q i - D i| := abs_le.2 ⟨by linarith [s.1], by linarith [s.2]⟩
      linarith
    have t := abs_add_le ((reached C A fun j => if up j then E j else -E j) i - Q i) (Q i - D i)
    rw [sub_add_sub_cancel] at t
    have q := q2 i
    rw [Pi.sub_apply, abs_sub_comm] at q
    linarith
  obtain ⟨T, hT, rfl⟩ := hP
  obtain ⟨e1, e2⟩ := extreme (C := C) (A := A) hT i
  have u := (abs_le.1 (each fun j => decide (0 ≤ A j i))).2
  have v := (abs_le.1 (each fun j => !decide (0 ≤ A j i))).1
  have same : (fun j => if (!decide (0 ≤ A j i)) = true then E j else -E j) = fun j => if decide (0 ≤ A j i) then -E j else E j := by
    funext j
    by_cases g : 0 ≤ A j i <;> simp [g]
  rw [same] at v
  exact abs_le.2 ⟨by linarith, by linarith⟩

/-- C191: a box contains an oriented one if its points are in the box whose extents are smaller by the rounding of the corners. -/
theorem C191_inside_found (f : Format) (hp : 1 ≤ f.p) (l : (Fin 3 → Bool) → Fin 3 → Store Bool 3) (a : Model.FloatBox.Box) (D F : Fin 3 → ℚ) (ha : BoxOf f a D F) (b : Obb)
    (C : Fin 3 → ℚ) (A : Fin 3 → Fin 3 → ℚ) (E : Fin 3 → ℚ) (hb : IsObb b C A E) (hE : ∀ j, 0 ≤ E j) (R S L : ℚ) (bC : Within R C) (bA : ∀ j, Within S (A j))
    (bE : Within L E) (hg : cornerMost f R S L ≤ f.greatest) (h : ∀ P, InBox C A E P → ∀ i, |P i - D i| + cornerSlack f R S L ≤ F i) : boxContains f l a b = true := by
  refine List.all_eq_true.2 fun up _ => ?_
  obtain ⟨Q, q1, q2⟩ := FloatObb.C190_corner f (l up) b C A E hb R S L bC bA bE hg up
  refine (FloatBox.C166_contains f hp a D F ha _ Q (corner_has hp (l up) b up) (component q1)).1 fun i => ?_
  have g := h (reached C A fun j => if up j then E j else -E j) ⟨_, fun j => by
    by_cases u : up j = true
    · simp only [u, if_true]
      exact (abs_of_nonneg (hE j)).le
    · simp only [u]
      rw [if_neg (by simp), abs_neg]
      exact (abs_of_nonneg (hE j)).le, rfl⟩ i
  have t := abs_add_le (Q i - (reached C A fun j => if up j then E j else -E j) i) ((reached C A fun j => if up j then E j else -E j) i - D i)
  rw [sub_add_sub_cancel] at t
  have q := q2 i
  rw [Pi.sub_apply] at q
  obtain ⟨x, y⟩ := abs_le.1 (t.trans (by linarith : _ ≤ F i))
  exact ⟨by linarith, by linarith⟩

open Verif.Spec.Region (Values Inside Between) in
/-- C191: a box that is made of a range of points has them when it is made larger by the rounding of a number that none of their coordinates exceeds, if it is finite. -/
theorem C191_range (f : Format) (hp : 1 ≤ f.p) (ps : List Model.FloatBox.Vec) (h : ∀ p ∈ ps, FloatBox.Of f p ∧ ∃ P, Values p P) (D F r : Fin 3 → ℚ)
    (hD : Values (fromRange f ps).center D) (hF : Values (fromRange f ps).extents F) (hr : ∀ p ∈ ps, ∀ P, Values p P → ∀ i, |P i| ≤ r i) :
    ∀ p ∈ ps, ∀ P, Values p P → Inside D (fun i => F i + (f.u * r i + 2 * f.tiny)) P := by
  cases ps with
  | nil => simp
  | cons v vs =>
    have hv : ∀ i, ∀ p ∈ v :: vs, ∃ X, value (p i) = some X := fun i p hp => ⟨_, (h p hp).2.choose_spec i⟩
    choose hm m hm1 hm2 using fun i => minRange_spec i vs v (hv i)
    choose hM M hM1 hM2 using fun i => maxRange_spec i vs v (hv i)
    have hasm : FloatBox.Of f (minRange v vs) := fun i => by obtain ⟨q, hq, e⟩ := hm i; rw [e]; exact (h q hq).1 i
    have hasM : FloatBox.Of f (maxRange v vs) := fun i => by obtain ⟨q, hq, e⟩ := hM i; rw [e]; exact (h q hq).1 i
    obtain ⟨-, key⟩ := FloatBox.C166_fit_partial f hp _ _ m M hasm hasM hm1 hM1 D F hD hF
    intro p hp' P hP i
    have := key P (fun i => ⟨hm2 i p hp' _ (hP i), hM2 i p hp' _ (hP i)⟩) i
    have hmax : Max.max |m i| |M i| ≤ r i := by
      apply max_le
      · obtain ⟨q, hq, e⟩ := hm i
        obtain ⟨Q, hQ⟩ := (h q hq).2
        have e2 := hm1 i
        rw [e, hQ i] at e2
        rw [← Option.some.inj e2]
        exact hr q hq Q hQ i
      · obtain ⟨q, hq, e⟩ := hM i
        obtain ⟨Q, hQ⟩ := (h q hq).2
        have e2 := hM1 i
        rw [e, hQ i] at e2
        rw [← Option.some.inj e2]
        exact hr q hq Q hQ i
    have hu := mul_le_mul_of_nonneg_left hmax (u_pos f).le
    exact ⟨by linarith [this.1], by linarith [this.2]⟩

open Verif.Spec.Region (Values Inside Between) in
/-- C191: the box that `from_obb` makes has every point of the oriented box when it is made larger by what rounding can hide, if it is finite. -/
theorem C191_from_obb (f : Format) (hp : 1 ≤ f.p) (l : (Fin 3 → Bool) → Fin 3 → Store Bool 3) (b : Obb) (C : Fin 3 → ℚ) (A : Fin 3 → Fin 3 → ℚ) (E : Fin 3 → ℚ)
    (hb : IsObb b C A E) (R S L : ℚ) (bC : Within R C) (bA : ∀ j, Within S (A j)) (bE : Within L E) (hg : cornerMost f R S L ≤ f.greatest) (D F : Fin 3 → ℚ)
    (hD : Values (fromObb f l b).center D) (hF : Values (fromObb f l b).extents F) (P : Fin 3 → ℚ) (hP : InBox C A E P) :
    Inside D (fun i => F i + (f.u * cornerMost f R S L + 2 * f.tiny + cornerSlack f R S L)) P := by
  choose Q q1 q2 using fun up => FloatObb.C190_corner f (l up) b C A E hb R S L bC bA bE hg up
  have vals : ∀ up, Values (Model.FloatSphere.components (corner f (l up) b up)) (Q up) := fun up => component (q1 up)
  have unique : ∀ up P, Values (Model.FloatSphere.components (corner f (l up) b up)) P → P = Q up := fun up P h => funext fun i => Option.some.inj ((h i).symm.trans (vals up i))
  have size : ∀ up i, |Q up i| ≤ cornerMost f R S L := fun up i => by
    have t := reached_le bC bA (T := fun j => if up j then E j else -E j) (L := L) (fun j => by
      by_cases u : up j = true
      · simp only [u, if_true]
        exact bE j
      · simp only [u]
        rw [if_neg (by simp), abs_neg]
        exact bE j) i
    have q := q2 up i
    rw [Pi.sub_apply] at q
    have a := abs_add_le (Q up i - (reached C A fun j => if up j then E j else -E j) i) ((reached C A fun j => if up j then E j else -E j) i)
    rw [sub_add_cancel] at a
    unfold cornerSlack at q
    unfold cornerMost
    linarith
  have inside : ∀ up i, D i - (F i + (f.u * cornerMost f R S L + 2 * f.tiny)) ≤ Q up i ∧ Q up i ≤ D i + (F i + (f.u * cornerMost f R S L + 2 * f.tiny)) := fun up i => by
    refine C191_range f hp _ ?_ D F (fun _ => cornerMost f R S L) hD hF ?_ (Model.FloatSphere.components (corner f (l up) b up)) (List.mem_map.2 ⟨up, order_all up, rfl⟩) (Q up) (vals up) i
    · intro p hp'
      obtain ⟨up, -, rfl⟩ := List.mem_map.1 hp'
      exact ⟨corner_has hp (l up) b up, Q up, vals up⟩
    · intro p hp' P hP i
      obtain ⟨up, -, rfl⟩ := List.mem_map.1 hp'
      rw [unique up P hP]
      exact size up i
  intro i
  obtain ⟨T, hT, rfl⟩ := hP
  obtain ⟨e1, e2⟩ := extreme (C := C) (A := A) hT i
  have u := (inside (fun j => decide (0 ≤ A j i)) i).2
  have v := (inside (fun j => !decide (0 ≤ A j i)) i).1
  have qu := abs_le.1 (q2 (fun j => decide (0 ≤ A j i)) i)
  have qv := abs_le.1 (q2 (fun j => !decide (0 ≤ A j i)) i)
  have same : (fun j => if (!decide (0 ≤ A j i)) = true then E j else -E j) = fun j => if decide (0 ≤ A j i) then -E j else E j := by
    funext j
    by_cases g : 0 ≤ A j i <;> simp [g]
  rw [same] at qv
  rw [Pi.sub_apply] at qu qv
  exact ⟨by linarith [qv.2], by linarith [qu.1]⟩

/-- The turned box, with other extents. -/
def longer : Obb := ⟨turned.center, .three (num 3) (num 4) (num 1), turned.axes⟩

/-- The axes of both. -/
def axes : Fin 3 → Fin 3 → ℚ := ![![5033165 / 8388608, 13421773 / 16777216, 0], ![-(13421773 / 16777216), 5033165 / 8388608, 0], ![0, 0, 1]]

/-- C191: the margin is needed: a box is said to contain a turned one, a corner of which is outside. -/
theorem C191_margin_needed : boxContains binary32 (fun _ => plains) ⟨![num 0, num 0, num 0], ![num 5, num 6, num 1]⟩ longer = true ∧
    InBox ![0, 0, 0] axes ![3, 4, 1] (reached ![0, 0, 0] axes ![3, -4, 1]) ∧ 5 < reached ![0, 0, 0] axes ![3, -4, 1] 0 := by
  refine ⟨by decide +kernel, ⟨_, fun j => ?_, rfl⟩, by decide +kernel⟩
  fin_cases j <;> decide +kernel

/-- Boxes and spheres that meet the hypotheses. -/
example : IsObb longer ![0, 0, 0] axes ![3, 4, 1] ∧ (∀ j, Within 1 (axes j)) ∧ InRange binary32 8 1 ∧ nearestMost binary32 8 1 ≤ binary32.greatest ∧
    cornerMost binary32 8 1 4 ≤ binary32.greatest ∧ cornerSlack binary32 8 1 4 ≤ 1 / 2 ^ 16 ∧ nearestSlack binary32 8 1 ≤ 1 / 2 ^ 13 ∧ binary32.u < 1 ∧ 2 ≤ binary32.greatest ∧
    (∀ i, |nearest ![0, 0, 0] axes ![3, 4, 1] ![8, 0, 0] i - ![8, 0, 0] i| ≤ 4) ∧
    (1 + binary32.u) ^ 5 * (3 * (4 + nearestSlack binary32 8 1) ^ 2) + 6 * (1 + binary32.u) ^ 2 * binary32.tiny ≤ (1 - binary32.u) * 7 ^ 2 ∧
    intersectsSphere binary32 plains plains plain longer ⟨.three (num 8) (num 0) (num 0), num 7⟩ = some true ∧
    intersectsSphere binary32 plains plains plain longer ⟨.three (num 8) (num 0) (num 0), num 2⟩ = some false ∧
    boxContains binary32 (fun _ => plains) ⟨![num 0, num 0, num 0], ![num 6, num 6, num 2]⟩ longer = true ∧
    boxContains binary32 (fun _ => plains) ⟨![num 0, num 0, num 0], ![num 6, num 4, num 2]⟩ longer = false := by
  refine ⟨⟨by unfold IsVec; decide +kernel, fun j => by fin_cases j <;> (unfold IsVec; decide +kernel), by unfold IsVec; decide +kernel⟩, by unfold Within; decide +kernel,
    ⟨by decide +kernel, by decide +kernel⟩, by decide +kernel, by decide +kernel, by decide +kernel, by decide +kernel, by decide +kernel, by decide +kernel, by decide +kernel,
    by decide +kernel, by decide +kernel, by decide +kernel, by decide +kernel, by decide +kernel⟩

/-- The box around the longer box is finite. -/
example : Spec.Region.Values (fromObb binary32 (fun _ => plains) longer).center ![0, 0, 0] ∧ Spec.Region.Values (fromObb binary32 (fun _ => plains) longer).extents ![5, 10066330 / 2097152, 1] := by
  unfold Spec.Region.Values
  decide +kernel

/-- Every point of the longer box is in the box with extents 6, 6 and 2, and by more than rounding can hide. -/
example (P : Fin 3 → ℚ) (h : InBox ![0, 0, 0] axes ![3, 4, 1] P) (i : Fin 3) : |P i - (![0, 0, 0] : Fin 3 → ℚ) i| + cornerSlack binary32 8 1 4 ≤ (![6, 6, 2] : Fin 3 → ℚ) i := by
  obtain ⟨T, hT, rfl⟩ := h
  obtain ⟨e1, e2⟩ := extreme (C := ![0, 0, 0]) (A := axes) hT i
  have s : cornerSlack binary32 8 1 4 ≤ 1 / 2 ^ 16 := by decide +kernel
  have b : ∀ i : Fin 3, (![0, 0, 0] : Fin 3 → ℚ) i = 0 ∧ (reached ![0, 0, 0] axes fun j => if decide (0 ≤ axes j i) then (![3, 4, 1] : Fin 3 → ℚ) j else -(![3, 4, 1] : Fin 3 → ℚ) j) i + 1 / 2 ^ 16 ≤
      (![6, 6, 2] : Fin 3 → ℚ) i ∧ 1 / 2 ^ 16 - (reached ![0, 0, 0] axes fun j => if decide (0 ≤ axes j i) then -(![3, 4, 1] : Fin 3 → ℚ) j else (![3, 4, 1] : Fin 3 → ℚ) j) i ≤
      (![6, 6, 2] : Fin 3 → ℚ) i := by decide +kernel
  obtain ⟨b0, b1, b2⟩ := b i
  have : |reached ![0, 0, 0] axes T i - (![0, 0, 0] : Fin 3 → ℚ) i| ≤ (![6, 6, 2] : Fin 3 → ℚ) i - cornerSlack binary32 8 1 4 := abs_le.2 ⟨by linarith, by linarith⟩
  linarith

end Verif.Props.FloatObbs
