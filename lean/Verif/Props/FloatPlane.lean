import Verif.Proofs.FloatPlane
import Verif.Props.FloatMatrix
/-!
# C182: planes of floating-point numbers
-/
namespace Verif.Props.FloatPlane
open Verif.Spec.IeeeArith Verif.Spec.FloatFormat Verif.Spec.Representable Verif.Spec.PlaneRounding Verif.Spec.Closeness
open Verif.Model.VectorStore hiding construct
open Verif.Model.FloatVector Verif.Model.FloatPlane
open Verif.Proofs.FloatVector Verif.Proofs.FloatProducts Verif.Proofs.FloatError Verif.Proofs.FloatPlane
open Verif.Props.FloatCross (are3)
open Verif.Props.FloatQuat (dot3)
open Verif.Props.FloatVector (num)

/-- C182: the signed distance is off by no more than four roundings, relative to the magnitudes of the products and of `d`, and the distance is its magnitude, whatever
is contracted, if nothing overflows. -/
theorem C182_distance (f : Format) (h1p : 1 ≤ f.p) (k : Store Bool 3) (hk : Contraction k) (p : Plane) (N : Fin 3 → ℚ) (D : ℚ) (hp : IsPlane p N D) (v : Store Number 3) (P : Fin 3 → ℚ)
    (hv : IsVec v P) (hg : InRange f N D P) :
    (∃ r z, signedDistance f k p v = some r ∧ value r = some z ∧ |z - offset N D P| ≤ slack f N D P) ∧
    ∃ r z, distance f k p v = some r ∧ value r = some z ∧ |z - abs (offset N D P)| ≤ slack f N D P := by
  obtain ⟨r, h1, h2⟩ := distance_near f k hk hp hv hg
  obtain ⟨z, h3, -, -, h4⟩ := h2
  refine ⟨⟨r, z, h1, h3, h4⟩, ?_⟩
  refine ⟨Model.Kahan.abs r, |z|, by unfold distance; rw [h1]; rfl, ?_, (abs_abs_sub_abs_le _ _).trans h4⟩
  have hm : ∀ s a, r = .fin s a → 0 ≤ a := by
    intro s a e
    unfold signedDistance at h1
    cases hd : dot f k p.normal v with
    | none => rw [hd] at h1; cases h1
    | some t =>
      rw [hd] at h1
      simp only [Option.bind_eq_bind, Option.bind_some, Option.some.injEq] at h1
      exact Proofs.FloatSphere.round_mag h1p (fun _ _ e => Proofs.FloatBox.add_mag e) s a (h1.trans e)
  cases r with
  | nan => simp [value] at h3
  | inf s => simp [value] at h3
  | fin s a =>
    have h0 := hm s a rfl
    simp only [value, Option.some.injEq] at h3
    cases s <;> simp [Model.Kahan.abs, value, signed, ← h3, abs_of_nonneg h0]

/-- C182: points that are further off than rounding can hide are told apart by the side they are on, any number of them. -/
theorem C182_same_side_partial (f : Format) (p : Plane) (N : Fin 3 → ℚ) (D : ℚ) (hp : IsPlane p N D) (q1 q2 : Store Bool 3 × Store Number 3)
    (qs : List (Store Bool 3 × Store Number 3)) (at_ : Store Bool 3 × Store Number 3 → Fin 3 → ℚ)
    (hq : ∀ q ∈ q1 :: q2 :: qs, Contraction q.1 ∧ IsVec q.2 (at_ q) ∧ InRange f N D (at_ q) ∧ slack f N D (at_ q) < |offset N D (at_ q)|) :
    sameSide f p q1 q2 qs = some (decide (∀ q ∈ q2 :: qs, (0 ≤ offset N D (at_ q1) ↔ 0 ≤ offset N D (at_ q)))) := by
  have hs : ∀ q ∈ q1 :: q2 :: qs, side f p q = some (decide (0 ≤ offset N D (at_ q))) := fun q h =>
    side_right hp (hq q h).1 (hq q h).2.1 (hq q h).2.2.1 (hq q h).2.2.2
  have key : ∀ (l : List (Store Bool 3 × Store Number 3)) (b : Prop) [Decidable b], (∀ q ∈ l, side f p q = some (decide (0 ≤ offset N D (at_ q)))) →
      others f p (decide b) l = some (decide (∀ q ∈ l, (b ↔ 0 ≤ offset N D (at_ q)))) := by
    intro l b _ hl
    induction l with
    | nil => simp [others]
    | cons q l ih =>
      unfold others
      rw [hl q (by simp)]
      simp only [Option.bind_eq_bind, Option.bind_some]
      by_cases h : b ↔ 0 ≤ offset N D (at_ q)
      · rw [if_pos (by simp [h]), ih fun q h => hl q (by simp [h])]
        simp only [Option.some.injEq, decide_eq_decide, List.forall_mem_cons]
        exact ⟨fun g => ⟨h, g⟩, fun g => g.2⟩
      · rw [if_neg (by simpa using h)]
        simp only [Option.some.injEq, List.forall_mem_cons]
        symm
        rw [decide_eq_false_iff_not]
        exact fun g => h g.1
  unfold sameSide
  rw [hs q1 (by simp)]
  exact key _ _ fun q h => hs q (by simp only [List.mem_cons] at h ⊢; exact .inr h)

/-- C182: a plane made from a position and a direction contains that position: its distance is exactly zero, if the same products are contracted in both dot products and
nothing overflows; `contains` is true for any epsilon above zero. -/
theorem C182_position_partial (f : Format) (hp : 12 ≤ f.p) (k : Store Bool 3) (hk : Contraction k) (position direction : Store Number 3) (P N : Fin 3 → ℚ) (hP : IsVec position P)
    (hN : IsVec direction N) (hg : InRange f N 0 P) :
    ∃ p r, construct f k position direction = some p ∧ p.normal = direction ∧ signedDistance f k p position = some r ∧ value r = some 0 ∧
      ∀ eps E, f.Has eps → value eps = some E → 0 < E → contains f k p position eps = some true := by
  obtain ⟨x, y, z, rfl, hx, hy, hz⟩ := are3 hN
  obtain ⟨x', y', z', rfl, hx', hy', hz'⟩ := are3 hP
  have ht := tiny_pos f
  have a0 := abs_nonneg (N 0 * P 0)
  have a1 := abs_nonneg (N 1 * P 1)
  have a2 := abs_nonneg (N 2 * P 2)
  unfold InRange at hg
  rw [bulk_eq, abs_zero, add_zero] at hg
  obtain ⟨s, h1, S, h2, -⟩ := dot3 f k hk hx hy hz hx' hy' hz' (grow (by norm_num) (by linarith) (by linarith) hg)
  have e : construct f k (.three x' y' z') (.three x y z) = some ⟨.three x y z, s.negate⟩ := by
    unfold construct dTerm
    rw [dot_swap, h1]
    rfl
  have h0 : value (s.add s.negate) = some 0 := by
    have := value_add h2 (value_negate h2)
    rwa [add_neg_cancel] at this
  have g0 : 0 ≤ f.greatest := le_trans (by positivity) hg
  have r0 : value (Op.add.eval f s s.negate) = some 0 := exact_round (by omega) (rep_zero f g0) h0
  have hd : signedDistance f k ⟨.three x y z, s.negate⟩ (.three x' y' z') = some (Op.add.eval f s s.negate) := by
    unfold signedDistance
    rw [h1]
    rfl
  refine ⟨_, _, e, rfl, hd, r0, fun eps E he hE hpos => ?_⟩
  have ha : Model.Approx.assumed eps = true := by
    rw [Proofs.Approx.assumed_iff]
    cases eps with
    | nan => simp [value] at hE
    | inf s => simp [value] at hE
    | fin s a =>
      simp only [value, Option.some.injEq] at hE
      show 0 ≤ signed s a
      rw [hE]; exact hpos.le
  have hps : Model.Approx.promoteSmall f = f := by unfold Model.Approx.promoteSmall; rw [if_neg (by omega)]
  unfold contains
  rw [hd]
  simp only [Option.bind_eq_bind, Option.bind_some, ha, if_true]
  rw [Proofs.Approx.near_eq, hps, Proofs.Approx.test_exact (by omega) (distance_has (by omega) k _ _ hd) he
    ⟨0, 0, r0, by simp [value, signed], .inr ⟨E, hE, by simpa using hpos⟩⟩]

/-- C182: `contains` never takes a point for one of the plane that is off by epsilon and what rounding can hide, nor misses one that is nearer than epsilon by that much. -/
theorem C182_contains (f : Format) (h12 : 12 ≤ f.p) (k : Store Bool 3) (hk : Contraction k) (p : Plane) (N : Fin 3 → ℚ) (D : ℚ) (hp : IsPlane p N D) (v : Store Number 3)
    (P : Fin 3 → ℚ) (hv : IsVec v P) (hg : InRange f N D P) (eps : Number) (E : ℚ) (he : f.Has eps) (hE : value eps = some E) (h0 : 0 ≤ E) :
    ∃ b, contains f k p v eps = some b ∧ (b = true → |offset N D P| < E + slack f N D P) ∧ (|offset N D P| + slack f N D P < E → b = true) := by
  obtain ⟨r, z, h1, h2, h3⟩ := distance_err f k hk hp hv hg
  have ha : Model.Approx.assumed eps = true := by
    rw [Proofs.Approx.assumed_iff]
    cases eps with
    | nan => simp [value] at hE
    | inf s => simp [value] at hE
    | fin s a =>
      simp only [value, Option.some.injEq] at hE
      show 0 ≤ signed s a
      rw [hE]; exact h0
  have hps : Model.Approx.promoteSmall f = f := by unfold Model.Approx.promoteSmall; rw [if_neg (by omega)]
  have hval : value eps ≠ none := by rw [hE]; simp
  have t := abs_sub_abs_le_abs_sub (offset N D P) z
  rw [abs_sub_comm] at t
  have t' := abs_sub_abs_le_abs_sub z (offset N D P)
  refine ⟨Model.Approx.near f eps r (.fin false 0), ?_, ?_, ?_⟩
  · unfold contains
    rw [h1]
    simp only [Option.bind_eq_bind, Option.bind_some, ha, if_true]
  · intro hb
    rw [Proofs.Approx.near_eq, hps] at hb
    obtain ⟨A, B, hA, hB, hc⟩ := Proofs.Approx.test_sound (by omega) he hb
    rw [h2] at hA
    have hB0 : B = 0 := by simpa [value, signed] using hB.symm
    obtain rfl : z = A := Option.some.inj hA
    subst hB0
    rcases hc with rfl | ⟨E', hE', hlt⟩
    · simp [value] at hE
    · rw [hE] at hE'
      obtain rfl : E = E' := Option.some.inj hE'
      rw [zero_sub, abs_neg] at hlt
      linarith
  · intro hlt
    rw [Proofs.Approx.near_eq, hps]
    exact Proofs.Approx.test_exact (by omega) (distance_has (by omega) k _ _ h1) he ⟨z, 0, h2, by simp [value, signed], .inr ⟨E, hE, by
      rw [zero_sub, abs_neg]; linarith⟩⟩

/-- C182: each coordinate of the projection of a point is off by no more than six roundings, relative to the magnitudes of the point and of the way to the plane. -/
theorem C182_project (f : Format) (k c : Store Bool 3) (hk : Contraction k) (p : Plane) (N : Fin 3 → ℚ) (D : ℚ) (hp : IsPlane p N D) (v : Store Number 3) (P : Fin 3 → ℚ)
    (hv : IsVec v P) (hr : InRange f N D P) (hg : ∀ i, (1 + f.u) ^ 6 * (|P i| + |N i| * bulk N D P + (|N i| * (4 * f.tiny) + 2 * f.tiny)) ≤ f.greatest) :
    ∃ r R, project f k c p v = some r ∧ IsVec r R ∧ ∀ i, |R i - (P i - N i * offset N D P)| ≤
      ((1 + f.u) ^ 6 - 1) * (|P i| + |N i| * bulk N D P) + (1 + f.u) ^ 6 * (|N i| * (4 * f.tiny) + 2 * f.tiny) := by
  obtain ⟨s, h1, h2⟩ := distance_near f k hk hp hv hr
  obtain ⟨n, d⟩ := p
  obtain ⟨hn, hd⟩ := hp
  obtain ⟨x, y, z, rfl, hx, hy, hz⟩ := are3 hn
  obtain ⟨x', y', z', rfl, hx', hy', hz'⟩ := are3 hv
  have ht := tiny_pos f
  have hb : 0 ≤ bulk N D P := by rw [bulk_eq]; positivity
  have one : ∀ (i : Fin 3) (a b : Number) (j : Bool), value a = some (N i) → value b = some (P i) →
      ∃ R, value (f.round (b.sub (product f (a, s) j))) = some R ∧ |R - (P i - N i * offset N D P)| ≤
        ((1 + f.u) ^ 6 - 1) * (|P i| + |N i| * bulk N D P) + (1 + f.u) ^ 6 * (|N i| * (4 * f.tiny) + 2 * f.tiny) := by
    intro i a b j ha hb'
    have n0 := abs_nonneg (N i)
    have p0 := abs_nonneg (P i)
    have m0 : 0 ≤ |N i| * bulk N D P := mul_nonneg n0 hb
    have m1 : 0 ≤ |N i| * (4 * f.tiny) := by positivity
    have q := (Near.exact f ha).product h2 j (by
      refine grow (l := 6) (by norm_num) ?_ (by positivity) (hg i)
      linarith)
    have q' := q.mono (k' := 5) (M' := |N i| * bulk N D P) (T' := |N i| * (4 * f.tiny) + f.tiny) (by norm_num) le_rfl (by linarith)
    have w := (((Near.exact f hb').mono (k' := 5) (by norm_num) le_rfl le_rfl).sub q').round (by
      refine le_of_eq_of_le ?_ (hg i)
      ring)
    obtain ⟨R, w1, -, -, w2⟩ := w
    refine ⟨R, w1, w2.trans (le_of_eq ?_)⟩
    ring
  cases c with
  | three c1 c2 c3 =>
    obtain ⟨X, e1, f1⟩ := one 0 x x' c1 hx hx'
    obtain ⟨Y, e2, f2⟩ := one 1 y y' c2 hy hy'
    obtain ⟨Z, e3, f3⟩ := one 2 z z' c3 hz hz'
    refine ⟨.three (f.round (x'.sub (product f (x, s) c1))) (f.round (y'.sub (product f (y, s) c2))) (f.round (z'.sub (product f (z, s) c3))), ![X, Y, Z], ?_, ?_, ?_⟩
    · unfold project
      rw [h1]
      rfl
    · simp [IsVec, Are, parts, e1, e2, e3]
    · intro i
      fin_cases i
      · exact f1
      · exact f2
      · exact f3

/-- C182: of integers, whose products and sums are below the number of all significant bits, the signed distance is exact: points are told apart exactly. -/
theorem C182_integers (f : Format) (h1p : 1 ≤ f.p) (he : f.emin - f.p + 1 ≤ 0) (hg : 2 ^ f.p ≤ f.greatest) (k : Store Bool 3) (p : Plane) (N : Fin 3 → ℤ) (D : ℤ)
    (hp : IsPlane p (fun i => N i) D) (v : Store Number 3) (P : Fin 3 → ℤ) (hv : IsVec v fun i => P i) (h : ∑ i, |N i * P i| + |D| < 2 ^ f.p) :
    (∃ r, signedDistance f k p v = some r ∧ value r = some (offset (fun i => N i) D fun i => P i)) ∧
    side f p (k, v) = some (decide (0 ≤ ∑ i, N i * P i + D)) := by
  obtain ⟨n, d⟩ := p
  obtain ⟨hn, hd⟩ := hp
  obtain ⟨x, y, z, rfl, hx, hy, hz⟩ := are3 hn
  obtain ⟨x', y', z', rfl, hx', hy', hz'⟩ := are3 hv
  rw [Fin.sum_univ_three] at h
  have rep : ∀ m : ℤ, |m| < 2 ^ f.p → Representable f m := FloatMatrix.int_rep f he hg
  have a0 := abs_nonneg (N 0 * P 0)
  have a1 := abs_nonneg (N 1 * P 1)
  have a2 := abs_nonneg (N 2 * P 2)
  have a3 := abs_nonneg D
  have t1 := abs_add_le (N 0 * P 0) (N 1 * P 1)
  have t2 := abs_add_le (N 0 * P 0 + N 1 * P 1) (N 2 * P 2)
  have t3 := abs_add_le (N 0 * P 0 + N 1 * P 1 + N 2 * P 2) D
  cases k with
  | three k1 k2 k3 =>
  have p1 := exact_product h1p hx hx' (by have := rep (N 0 * P 0) (by linarith); push_cast at this; exact this) k1
  have p2 := exact_product h1p hy hy' (by have := rep (N 1 * P 1) (by linarith); push_cast at this; exact this) k2
  have p3 := exact_product h1p hz hz' (by have := rep (N 2 * P 2) (by linarith); push_cast at this; exact this) k3
  have s1 := exact_round h1p (by have := rep (N 0 * P 0 + N 1 * P 1) (by linarith); push_cast at this; exact this) (value_add p1 p2)
  have s2 := exact_round h1p (by have := rep (N 0 * P 0 + N 1 * P 1 + N 2 * P 2) (by linarith); push_cast at this; exact this) (value_add s1 p3)
  have s3 := exact_round h1p (by have := rep (N 0 * P 0 + N 1 * P 1 + N 2 * P 2 + D) (by linarith); push_cast at this; exact this) (value_add s2 hd)
  have e : value _ = some (offset (fun i => (N i : ℚ)) D fun i => (P i : ℚ)) := s3.trans (by rw [offset_eq])
  refine ⟨⟨_, rfl, e⟩, ?_⟩
  show some _ = some _
  rw [Option.some.injEq, Bool.eq_iff_iff, decide_eq_true_iff, Fin.sum_univ_three]
  refine (Proofs.FloatBox.atLeast_values e (Y := 0) (by simp [value, signed])).trans ?_
  rw [offset_eq]
  exact_mod_cast Iff.rfl

/-- C182: each coordinate of the origin of a plane is off by one rounding, if nothing overflows. -/
theorem C182_origin (f : Format) (p : Plane) (N : Fin 3 → ℚ) (D : ℚ) (hp : IsPlane p N D) (hg : ∀ i, (1 + f.u) * (|N i| * |D| + f.tiny) ≤ f.greatest) :
    ∃ r R, origin f p = some r ∧ IsVec r R ∧ ∀ i, |R i - -(N i * D)| ≤ f.u * |N i * D| + (1 + f.u) * f.tiny := by
  obtain ⟨n, d⟩ := p
  obtain ⟨hn, hd⟩ := hp
  obtain ⟨x, y, z, rfl, hx, hy, hz⟩ := are3 hn
  have one : ∀ (i : Fin 3) (a : Number), value a = some (N i) → ∃ R, value (Op.mul.eval f a d.negate) = some R ∧ |R - -(N i * D)| ≤ f.u * |N i * D| + (1 + f.u) * f.tiny := by
    intro i a ha
    obtain ⟨R, h1, -, -, h2⟩ := (Near.exact f ha).product (Near.exact f (value_negate hd)) false (by
      rw [abs_neg]
      refine le_of_eq_of_le ?_ (hg i)
      ring)
    refine ⟨R, h1, ?_⟩
    rw [mul_neg, abs_neg] at h2
    refine h2.trans (le_of_eq ?_)
    rw [abs_mul]
    ring
  obtain ⟨X, e1, f1⟩ := one 0 x hx
  obtain ⟨Y, e2, f2⟩ := one 1 y hy
  obtain ⟨Z, e3, f3⟩ := one 2 z hz
  refine ⟨_, ![X, Y, Z], rfl, ?_, ?_⟩
  · simp [IsVec, Are, parts, e1, e2, e3]
  · intro i
    fin_cases i
    · exact f1
    · exact f2
    · exact f3

theorem abs_vec {f : Format} {n : Store Number 3} {N : Fin 3 → ℚ} (hf : ∀ a ∈ parts n, f.Has a) (h : IsVec n N) :
    ∃ m, construct1 (fun a => some (Model.Kahan.abs a)) n = some m ∧ IsVec m fun i => |N i| := by
  obtain ⟨x, y, z, rfl, hx, hy, hz⟩ := are3 h
  refine ⟨_, rfl, ?_⟩
  have e1 := FloatCross.abs_value (hf x (by simp [parts])) hx
  have e2 := FloatCross.abs_value (hf y (by simp [parts])) hy
  have e3 := FloatCross.abs_value (hf z (by simp [parts])) hz
  simp [IsVec, Are, parts, e1, e2, e3]

/-- C182: a box which has points on both sides of the plane, further off than rounding can hide, intersects it; and of a box that is said to intersect the plane some
point is no further off than that. -/
theorem C182_box (f : Format) (k j : Store Bool 3) (hk : Contraction k) (hj : Contraction j) (p : Plane) (N : Fin 3 → ℚ) (D : ℚ) (hp : IsPlane p N D)
    (hf : ∀ a ∈ parts p.normal, f.Has a) (hg0 : 1 ≤ f.p) (center extents : Store Number 3) (C E : Fin 3 → ℚ) (hC : IsVec center C) (hE : IsVec extents E) (hE0 : ∀ i, 0 ≤ E i)
    (hr : InRange f N D C) (hr' : (1 + f.u) ^ 3 * (reach E N + 3 * f.tiny) ≤ f.greatest) :
    ∃ b, intersectsBox f k j p center extents = some b ∧
      ((∃ A B, InBox C E A ∧ InBox C E B ∧ offset N D A ≤ -(slack f N D C + reachSlack f E N) ∧ slack f N D C + reachSlack f E N ≤ offset N D B) → b = true) ∧
      (b = true → ∃ X, InBox C E X ∧ |offset N D X| ≤ slack f N D C + reachSlack f E N) := by
  obtain ⟨-, d, Z, h1, h2, h3⟩ := C182_distance f hg0 k hk p N D hp center C hC hr
  obtain ⟨m, m1, m2⟩ := abs_vec hf hp.1
  obtain ⟨x, y, z, rfl, hx, hy, hz⟩ := are3 m2
  obtain ⟨x', y', z', rfl, hx', hy', hz'⟩ := are3 hE
  have er : reach E N = abs (E 0 * |N 0|) + abs (E 1 * |N 1|) + abs (E 2 * |N 2|) := by
    unfold reach
    rw [Fin.sum_univ_three]
    simp only [abs_mul, abs_abs]
  have er' : reach E N = E 0 * |N 0| + E 1 * |N 1| + E 2 * |N 2| := by
    rw [er]
    simp only [abs_mul, abs_abs, abs_of_nonneg (hE0 _)]
  obtain ⟨r, q1, R, q2, -, -, q3⟩ := dot3 f j hj hx' hy' hz' hx hy hz (by rw [← er]; exact hr')
  rw [← er, ← er'] at q3
  change |R - reach E N| ≤ reachSlack f E N at q3
  have l1 := abs_le.1 h3
  have l2 := abs_le.1 q3
  -- how far the offset changes within the box
  have within : ∀ A, InBox C E A → |offset N D A - offset N D C| ≤ reach E N := by
    intro A hA
    rw [offset_eq, offset_eq, er']
    have g : ∀ i, |N i * A i - N i * C i| ≤ E i * |N i| := fun i => by
      rw [← mul_sub, abs_mul, mul_comm]
      exact mul_le_mul_of_nonneg_right (hA i) (abs_nonneg _)
    have g0 := abs_le.1 (g 0)
    have g1 := abs_le.1 (g 1)
    have g2 := abs_le.1 (g 2)
    rw [abs_le]
    constructor <;> linarith
  refine ⟨Model.FloatBox.atMost d r, ?_, ?_, ?_⟩
  · unfold intersectsBox
    rw [h1, m1]
    simp only [Option.bind_eq_bind, Option.bind_some]
    rw [q1]
    rfl
  · rintro ⟨A, B, hA, hB, oA, oB⟩
    refine (Proofs.FloatBox.atLeast_values q2 h2).2 ?_
    have wA := abs_le.1 (within A hA)
    have wB := abs_le.1 (within B hB)
    have : |offset N D C| ≤ reach E N - (slack f N D C + reachSlack f E N) := by
      rw [abs_le]
      constructor <;> linarith
    linarith
  · intro hb
    have hle := (Proofs.FloatBox.atLeast_values q2 h2).1 hb
    have hoff : |offset N D C| ≤ reach E N + (slack f N D C + reachSlack f E N) := by linarith
    have s0 : 0 ≤ slack f N D C + reachSlack f E N := by
      have := slack_nonneg f N D C
      have := abs_nonneg (R - reach E N)
      linarith
    have re0 : 0 ≤ reach E N := by rw [er]; positivity
    -- the corner towards the plane, or a point on the way there
    have sgn : ∀ a : ℚ, ∃ s : ℚ, |s| ≤ 1 ∧ a * s = |a| := fun a => by
      rcases le_total 0 a with h | h
      · exact ⟨1, by simp, by rw [abs_of_nonneg h, mul_one]⟩
      · exact ⟨-1, by simp, by rw [abs_of_nonpos h]; ring⟩
    choose s hs1 hs2 using fun i => sgn (N i)
    have walk : ∀ t : ℚ, |t| ≤ 1 → ∃ X, InBox C E X ∧ offset N D X = offset N D C + t * reach E N := by
      intro t ht
      refine ⟨fun i => C i + t * s i * E i, fun i => ?_, ?_⟩
      · rw [add_sub_cancel_left, abs_mul, abs_mul, abs_of_nonneg (hE0 i)]
        have : |t| * |s i| ≤ 1 := mul_le_one₀ ht (abs_nonneg _) (hs1 i)
        have := mul_le_mul_of_nonneg_right this (hE0 i)
        linarith
      · rw [offset_eq, offset_eq, er', ← hs2 0, ← hs2 1, ← hs2 2]
        ring
    by_cases hc : |offset N D C| ≤ reach E N
    · by_cases h0 : reach E N = 0
      · obtain ⟨X, hX, e⟩ := walk 0 (by simp)
        refine ⟨X, hX, ?_⟩
        rw [e, zero_mul, add_zero]
        rw [h0] at hc
        linarith
      · have hpos := lt_of_le_of_ne re0 (Ne.symm h0)
        obtain ⟨X, hX, e⟩ := walk (-(offset N D C) / reach E N) (by
          rw [abs_div, abs_neg, abs_of_pos hpos, div_le_one hpos]
          exact hc)
        refine ⟨X, hX, ?_⟩
        rw [e, div_mul_cancel₀ _ h0, add_neg_cancel, abs_zero]
        exact s0
    · rw [not_le] at hc
      rcases le_total 0 (offset N D C) with h | h
      · obtain ⟨X, hX, e⟩ := walk (-1) (by simp)
        refine ⟨X, hX, ?_⟩
        rw [abs_of_nonneg h] at hc hoff
        rw [e, abs_of_nonneg (by linarith)]
        linarith
      · obtain ⟨X, hX, e⟩ := walk 1 (by simp)
        refine ⟨X, hX, ?_⟩
        rw [abs_of_nonpos h] at hc hoff
        rw [e, abs_of_nonpos (by linarith)]
        linarith

/-- No product is contracted. -/
def plain : Store Bool 3 := .three false false false

/-- The plane through the origin with the normal `(0.6f, 0.8f, 0)`. -/
def slanted : Plane := ⟨.three (num (5033165 / 8388608)) (num (13421773 / 16777216)) (num 0), num 0⟩

theorem has32 {x : ℚ} {m : ℕ} {k : ℤ} (hm : m < 2 ^ 24) (hk : -149 ≤ k) (e : |x| = m * 2 ^ k) (hg : |x| ≤ binary32.greatest) : binary32.Has (num x) :=
  ⟨⟨m, k, hm, hk, e⟩, hg⟩

/-- C182 is violated close to the plane: there are points of floats which are strictly on either side of a plane, though said to be on the same side, without any contraction. -/
theorem C182_same_side_violated : ∃ (N : Fin 3 → ℚ) (v w : Store Number 3) (P Q : Fin 3 → ℚ), IsPlane slanted N 0 ∧ IsVec v P ∧ IsVec w Q ∧
    (∀ a ∈ parts slanted.normal ++ (parts v ++ parts w), binary32.Has a) ∧
    offset N 0 P < 0 ∧ 0 < offset N 0 Q ∧ sameSide binary32 slanted (plain, v) (plain, w) [] = some true := by
  refine ⟨![5033165 / 8388608, 13421773 / 16777216, 0], .three (num (2254273 / 1048576)) (num (-13525639 / 8388608)) (num 0), .three (num 1) (num 1) (num 1),
    ![2254273 / 1048576, -13525639 / 8388608, 0], ![1, 1, 1], ⟨?_, ?_⟩, ?_, ?_, ?_, ?_, ?_, ?_⟩
  · unfold IsVec Are; decide +kernel
  · decide +kernel
  · unfold IsVec Are; decide +kernel
  · unfold IsVec Are; decide +kernel
  · intro a ha
    simp only [slanted, parts, List.cons_append, List.nil_append, List.mem_cons, List.not_mem_nil, or_false] at ha
    rcases ha with rfl | rfl | rfl | rfl | rfl | rfl | rfl | rfl | rfl
    · exact has32 (m := 5033165) (k := -23) (by norm_num) (by norm_num) (by norm_num [zpow_neg]) (by decide +kernel)
    · exact has32 (m := 13421773) (k := -24) (by norm_num) (by norm_num) (by norm_num [zpow_neg]) (by decide +kernel)
    · exact has32 (m := 0) (k := 0) (by norm_num) (by norm_num) (by norm_num) (by decide +kernel)
    · exact has32 (m := 2254273) (k := -20) (by norm_num) (by norm_num) (by norm_num [zpow_neg]) (by decide +kernel)
    · exact has32 (m := 13525639) (k := -23) (by norm_num) (by norm_num) (by norm_num [zpow_neg]) (by decide +kernel)
    · exact has32 (m := 0) (k := 0) (by norm_num) (by norm_num) (by norm_num) (by decide +kernel)
    all_goals exact has32 (m := 1) (k := 0) (by norm_num) (by norm_num) (by norm_num) (by decide +kernel)
  · decide +kernel
  · decide +kernel
  · decide +kernel

/-- C182 is violated where the two dot products are contracted differently, as in a constant expression and at run time: a plane made from a position does not contain it exactly. -/
theorem C182_position_violated : ∃ (k k' : Store Bool 3) (position direction : Store Number 3) (p : Plane) (r : Number) (z : ℚ), Contraction k ∧ Contraction k' ∧
    (∀ a ∈ parts position ++ parts direction, binary32.Has a) ∧ construct binary32 k position direction = some p ∧
    signedDistance binary32 k' p position = some r ∧ value r = some z ∧ z ≠ 0 := by
  refine ⟨plain, .three true false false, .three (num (9586981 / 67108864)) (num (11184811 / 33554432)) (num 0), slanted.normal,
    ⟨slanted.normal, num (-(1477993/4194304))⟩, num (-1/33554432), -1/33554432, ?_, ?_, ?_, ?_, ?_, ?_, ?_⟩
  · simp [Contraction, plain, parts]
  · simp [Contraction, parts]
  · intro a ha
    simp only [slanted, parts, List.cons_append, List.nil_append, List.mem_cons, List.not_mem_nil, or_false] at ha
    rcases ha with rfl | rfl | rfl | rfl | rfl | rfl
    · exact has32 (m := 9586981) (k := -26) (by norm_num) (by norm_num) (by norm_num [zpow_neg]) (by decide +kernel)
    · exact has32 (m := 11184811) (k := -25) (by norm_num) (by norm_num) (by norm_num [zpow_neg]) (by decide +kernel)
    · exact has32 (m := 0) (k := 0) (by norm_num) (by norm_num) (by norm_num) (by decide +kernel)
    · exact has32 (m := 5033165) (k := -23) (by norm_num) (by norm_num) (by norm_num [zpow_neg]) (by decide +kernel)
    · exact has32 (m := 13421773) (k := -24) (by norm_num) (by norm_num) (by norm_num [zpow_neg]) (by decide +kernel)
    · exact has32 (m := 0) (k := 0) (by norm_num) (by norm_num) (by norm_num) (by decide +kernel)
  · have : dTerm binary32 plain (.three (num (9586981 / 67108864)) (num (11184811 / 33554432)) (num 0)) slanted.normal = some (num (-(1477993 / 4194304))) := by decide +kernel
    unfold construct
    rw [this]
    rfl
  all_goals decide +kernel

/-- a plane and a point which meet the hypotheses -/
example : IsPlane slanted ![5033165 / 8388608, 13421773 / 16777216, 0] 0 ∧ IsVec (.three (num 1) (num 1) (num 1)) ![1, 1, 1] ∧
    InRange binary32 ![5033165 / 8388608, 13421773 / 16777216, 0] 0 ![1, 1, 1] ∧
    slack binary32 ![5033165 / 8388608, 13421773 / 16777216, 0] 0 ![1, 1, 1] < |offset ![5033165 / 8388608, 13421773 / 16777216, 0] 0 ![1, 1, 1]| ∧
    Contraction plain := by
  refine ⟨⟨?_, ?_⟩, ?_, ?_, ?_, ?_⟩
  · unfold IsVec Are; decide +kernel
  · decide +kernel
  · unfold IsVec Are; decide +kernel
  · unfold InRange; decide +kernel
  · decide +kernel
  · simp [Contraction, plain, parts]

/-- the ranges of the projection, the origin and the box are met: a box around the origin which is cut, and one beyond the plane that is not -/
example : (∀ i, (1 + binary32.u) ^ 6 * (|(![1, 1, 1] : Fin 3 → ℚ) i| + |(![5033165 / 8388608, 13421773 / 16777216, 0] : Fin 3 → ℚ) i| *
      bulk ![5033165 / 8388608, 13421773 / 16777216, 0] 0 ![1, 1, 1] + (|(![5033165 / 8388608, 13421773 / 16777216, 0] : Fin 3 → ℚ) i| * (4 * binary32.tiny) + 2 * binary32.tiny)) ≤
        binary32.greatest) ∧
    (∀ i, (1 + binary32.u) * (|(![5033165 / 8388608, 13421773 / 16777216, 0] : Fin 3 → ℚ) i| * |(-2 : ℚ)| + binary32.tiny) ≤ binary32.greatest) ∧
    (1 + binary32.u) ^ 3 * (reach ![1, 1, 1] ![5033165 / 8388608, 13421773 / 16777216, 0] + 3 * binary32.tiny) ≤ binary32.greatest ∧
    (∀ a ∈ parts slanted.normal, binary32.Has a) ∧
    intersectsBox binary32 plain plain slanted (.three (num 0) (num 1) (num 0)) (.three (num 1) (num 1) (num 1)) = some true ∧
    intersectsBox binary32 plain plain slanted (.three (num 2) (num 1) (num 0)) (.three (num 1) (num 1) (num 1)) = some false := by
  refine ⟨by decide +kernel, by decide +kernel, by decide +kernel, ?_, by decide +kernel, by decide +kernel⟩
  intro a ha
  simp only [slanted, parts, List.mem_cons, List.not_mem_nil, or_false] at ha
  rcases ha with rfl | rfl | rfl
  · exact has32 (m := 5033165) (k := -23) (by norm_num) (by norm_num) (by norm_num [zpow_neg]) (by decide +kernel)
  · exact has32 (m := 13421773) (k := -24) (by norm_num) (by norm_num) (by norm_num [zpow_neg]) (by decide +kernel)
  · exact has32 (m := 0) (k := 0) (by norm_num) (by norm_num) (by norm_num) (by decide +kernel)

/-- a plane and a point of integers, and an epsilon -/
example : IsPlane ⟨.three (num 2) (num (-3)) (num 1), num 5⟩ (fun i => ((![2, -3, 1] : Fin 3 → ℤ) i : ℚ)) (5 : ℤ) ∧
    IsVec (.three (num 7) (num 1) (num 4)) (fun i => ((![7, 1, 4] : Fin 3 → ℤ) i : ℚ)) ∧ ∑ i, |(![2, -3, 1] : Fin 3 → ℤ) i * (![7, 1, 4] : Fin 3 → ℤ) i| + |(5 : ℤ)| < 2 ^ binary32.p ∧
    binary32.emin - binary32.p + 1 ≤ 0 ∧ 2 ^ binary32.p ≤ binary32.greatest ∧ binary32.Has (num (1 / 1024)) ∧
    contains binary32 plain slanted (.three (num 0) (num 0) (num 9)) (num (1 / 1024)) = some true := by
  refine ⟨⟨?_, ?_⟩, ?_, ?_, ?_, ?_, ?_, ?_⟩
  · unfold IsVec Are; decide +kernel
  · decide +kernel
  · unfold IsVec Are; decide +kernel
  · decide +kernel
  · decide +kernel
  · decide +kernel
  · exact has32 (m := 1) (k := -10) (by norm_num) (by norm_num) (by norm_num [zpow_neg]) (by decide +kernel)
  · decide +kernel

end Verif.Props.FloatPlane
