import Verif.Proofs.FloatSegment
import Verif.Props.FloatRay
import Mathlib.Tactic.NormNum
/-!
# C185: line segments of floating-point numbers
-/
namespace Verif.Props.FloatSegment
open Verif.Spec.IeeeArith Verif.Spec.FloatFormat Verif.Spec.FloatSqrt Verif.Spec.Representable Verif.Spec.SegmentRounding
open Verif.Model.VectorStore hiding construct
open Verif.Model.FloatVector Verif.Model.FloatProducts Verif.Model.FloatSegment
open Verif.Model.FloatRay (defaultEpsilon)
open Verif.Proofs.FloatVector Verif.Proofs.FloatProducts Verif.Proofs.FloatError Verif.Proofs.FloatPlane Verif.Proofs.FloatTriangle Verif.Proofs.FloatSegment
open Verif.Props.FloatCross (are3)
open Verif.Props.FloatVector (num)
open Verif.Props.FloatPlane (has32 plain)
open Verif.Props.FloatLength (usual32)

/-- C185: each coordinate of the midpoint is between those of the ends (so that it is in the box that they span, and the ends themselves if they are equal), and is half
of their sum but for two roundings, if the sum does not overflow. -/
theorem C185_midpoint_partial (f : Format) (hf : Usual f) (p0 p1 : Store Number 3) (A B : Fin 3 → ℚ) (hA : IsVec p0 A) (hB : IsVec p1 B) (fA : ∀ x ∈ parts p0, f.Has x)
    (fB : ∀ x ∈ parts p1, f.Has x) (hg : ∀ i, (1 + f.u) * |A i + B i| ≤ f.greatest) :
    ∃ x X, midpoint f p0 p1 = some x ∧ IsVec x X ∧ ∀ i, min (A i) (B i) ≤ X i ∧ X i ≤ max (A i) (B i) ∧
      |X i - (A i + B i) / 2| ≤ ((1 + f.u) ^ 2 - 1) * (|A i + B i| / 2) + f.tiny := by
  obtain ⟨x, y, z, rfl, hx, hy, hz⟩ := are3 hA
  obtain ⟨x', y', z', rfl, hx', hy', hz'⟩ := are3 hB
  obtain ⟨X, e1, f1⟩ := mean hf (fA x (by simp [parts])) (fB x' (by simp [parts])) hx hx' (hg 0)
  obtain ⟨Y, e2, f2⟩ := mean hf (fA y (by simp [parts])) (fB y' (by simp [parts])) hy hy' (hg 1)
  obtain ⟨Z, e3, f3⟩ := mean hf (fA z (by simp [parts])) (fB z' (by simp [parts])) hz hz' (hg 2)
  refine ⟨_, ![X, Y, Z], rfl, ?_, ?_⟩
  · simp [IsVec, Are, parts, e1, e2, e3]
  · intro i
    fin_cases i
    · exact f1
    · exact f2
    · exact f3

/-- C185 is violated by midpoints: that of a segment of floats whose ends are equal is infinite. -/
theorem C185_midpoint_violated : binary32.Has (num (2 ^ 127)) ∧
    (midpoint binary32 (.three (num (2 ^ 127)) (num 0) (num 0)) (.three (num (2 ^ 127)) (num 0) (num 0))).map parts = some [.inf false, num 0, num 0] :=
  ⟨has32 (m := 1) (k := 127) (by norm_num) (by norm_num) (by norm_num) (by decide +kernel), by decide +kernel⟩

/-- The direction, from its parts. -/
theorem direction_near (f : Format) (hf : Usual f) (hp : 8 ≤ f.p) (k : Store Bool 3) (hk : Contraction k) (p0 p1 : Store Number 3) (A B : Fin 3 → ℚ) (R : ℚ)
    (hA : IsVec p0 A) (hB : IsVec p1 B) (fA : ∀ x ∈ parts p0, f.Has x) (fB : ∀ x ∈ parts p1, f.Has x) (bA : ∀ i, |A i| ≤ R) (bB : ∀ i, |B i| ≤ R) (hm : Moderate f R A B) :
    ∃ d0 d1 d2 len L, direction f k p0 p1 = some (.three d0 d1 d2, len) ∧ length f k p0 p1 = some len ∧ value len = some L ∧ Facts f A B R L ∧
      Near f 3 (|B 0 - A 0| / L) ((2 * R + 1) * f.tiny) d0 ((B 0 - A 0) / L) ∧ Near f 3 (|B 1 - A 1| / L) ((2 * R + 1) * f.tiny) d1 ((B 1 - A 1) / L) ∧
      Near f 3 (|B 2 - A 2| / L) ((2 * R + 1) * f.tiny) d2 ((B 2 - A 2) / L) := by
  obtain ⟨v, len, L, h1, h2, h3, h4⟩ := length_facts hf hp k hk hA hB fA fB bA bB hm
  obtain ⟨x, y, z, rfl, hx, hy, hz⟩ := are3 hA
  obtain ⟨x', y', z', rfl, hx', hy', hz'⟩ := are3 hB
  have one : ∀ (i : Fin 3) {a b : Number}, f.Has b → f.Has a → value b = some (B i) → value a = some (A i) →
      Near f 3 (|B i - A i| / L) ((2 * R + 1) * f.tiny) (Op.mul.eval f (Op.sub.eval f b a) (reciprocal f len)) ((B i - A i) / L) := fun i a b fb fa hb ha =>
    dir_one hf hp fb fa hb ha h3 (bB i) (bA i) h4.pos (h4.comp i) h4.back hm.2
  refine ⟨_, _, _, len, L, ?_, ?_, h3, h4, one 0 (fB x' (by simp [parts])) (fA x (by simp [parts])) hx' hx, one 1 (fB y' (by simp [parts])) (fA y (by simp [parts])) hy' hy,
    one 2 (fB z' (by simp [parts])) (fA z (by simp [parts])) hz' hz⟩
  · unfold direction
    rw [h1]
    simp only [Option.bind_eq_bind, Option.bind_some, h2]
    cases h1
    rfl
  · unfold length Verif.Model.FloatLength.distance Verif.Model.FloatLength.distanceSquared
    rw [h1]
    unfold Verif.Model.FloatLength.length at h2
    rw [if_neg (by norm_num)] at h2
    exact h2

/-- All that is known of the point that is found. -/
theorem closest_core (f : Format) (hf : Usual f) (hp : 8 ≤ f.p) (k k' c : Store Bool 3) (hk : Contraction k) (p0 p1 q : Store Number 3) (A B Q : Fin 3 → ℚ) (R : ℚ)
    (hA : IsVec p0 A) (hB : IsVec p1 B) (hQ : IsVec q Q) (fA : ∀ x ∈ parts p0, f.Has x) (fB : ∀ x ∈ parts p1, f.Has x) (fQ : ∀ x ∈ parts q, f.Has x)
    (bA : ∀ i, |A i| ≤ R) (bB : ∀ i, |B i| ≤ R) (bQ : ∀ i, |Q i| ≤ R) (hm : Moderate f R A B) :
    ∃ x X, closestPoint f k k' c p0 p1 q = some x ∧ IsVec x X ∧ (∀ a ∈ parts x, f.Has a) ∧
      (∃ s, 0 ≤ s ∧ s ≤ 1 ∧ ∀ i, |X i - along A B s i| ≤ offSlack f R A B i) ∧
      ∀ s, 0 ≤ s → s ≤ 1 → away X Q ≤ away (along A B s) Q + farSlack f R := by
  have hu := u_pos f
  obtain ⟨hu1, hu7⟩ := small hp
  have ht := tiny_pos f
  have ht1 := tiny_le hf
  have R0 : 0 ≤ R := (abs_nonneg _).trans (bA 0)
  have R2 := mul_nonneg R0 R0
  have tR : R * f.tiny ≤ R * (1 / 128) := mul_le_mul_of_nonneg_left ht1 R0
  have tR0 : 0 ≤ R * f.tiny := by positivity
  have tRR : R * R * f.tiny ≤ R * R * (1 / 128) := mul_le_mul_of_nonneg_left ht1 R2
  have tRR0 : 0 ≤ R * R * f.tiny := by positivity
  have m : 0 ≤ 48 * (R + 1) ^ 2 := by positivity
  have e4 : (0 : ℚ) < 2 ^ f.emin := by positivity
  have S0 : 0 < squared A B := by
    by_contra h
    have : f.u * squared A B ≤ 0 := mul_nonpos_of_nonneg_of_nonpos hu.le (not_lt.1 h)
    linarith [hm.1]
  obtain ⟨d0, d1, d2, len, L, h1, -, h3, hF, n0, n1, n2⟩ := direction_near f hf hp k hk p0 p1 A B R hA hB fA fB bA bB hm
  obtain ⟨x, y, z, rfl, hx, hy, hz⟩ := are3 hA
  obtain ⟨x'', y'', z'', rfl, hx'', hy'', hz''⟩ := are3 hQ
  -- the distance along the segment
  have diff : ∀ (i : Fin 3) {a b : Number}, f.Has b → f.Has a → value b = some (Q i) → value a = some (A i) → Near f 1 (2 * R) 0 (Op.sub.eval f b a) ((Q - A) i) := by
    intro i a b fb fa hb ha
    have d : |Q i - A i| ≤ 2 * R := (abs_sub _ _).trans (by linarith [bA i, bQ i])
    refine (sub_one fb fa hb ha ?_).mono le_rfl d le_rfl
    have := grow (l := 7) (k := 1) (A := |Q i - A i|) (by norm_num) (by linarith) m hm.2
    rwa [pow_one] at this
  have nP : NearVec f 1 (2 * R) 0 (.three (Op.sub.eval f x'' x) (Op.sub.eval f y'' y) (Op.sub.eval f z'' z)) (Q - A) :=
    ⟨_, _, _, rfl, diff 0 (fQ x'' (by simp [parts])) (fA x (by simp [parts])) hx'' hx, diff 1 (fQ y'' (by simp [parts])) (fA y (by simp [parts])) hy'' hy,
      diff 2 (fQ z'' (by simp [parts])) (fA z (by simp [parts])) hz'' hz⟩
  have nD : NearVec f 3 (9 / 8) ((2 * R + 1) * f.tiny) (.three d0 d1 d2) (fun i => (B i - A i) / L) :=
    ⟨_, _, _, rfl, n0.mono le_rfl (hF.comp 0) le_rfl, n1.mono le_rfl (hF.comp 1) le_rfl, n2.mono le_rfl (hF.comp 2) le_rfl⟩
  obtain ⟨t, g1, g2⟩ := dot_near k' nP nD (grow (l := 7) (by norm_num) (by linarith) m hm.2)
  have eD : dotted (Q - A) (fun i => (B i - A i) / L) = dots A B Q / L := by
    unfold dots dotted
    simp only [Pi.sub_apply]
    ring
  rw [eD] at g2
  obtain ⟨τ, t1, -, -, t2⟩ := g2.mono (k' := 7) (M' := 27 / 4 * R) (T' := 12 * (R + 1) ^ 2 * f.tiny) (by norm_num) (by linarith) (by linarith)
  -- the point
  have cv := clamp_value t1 h3 hF.pos
  obtain ⟨s0, s1⟩ := clip_mem (τ / L)
  have C0 : 0 ≤ clip (τ / L) * L := mul_nonneg s0 hF.pos.le
  have CL : clip (τ / L) * L ≤ L := by have := mul_le_mul_of_nonneg_right s1 hF.pos.le
                                       linarith
  have one : ∀ (i : Fin 3) (j : Bool) {a d : Number}, value a = some (A i) → Near f 3 (|B i - A i| / L) ((2 * R + 1) * f.tiny) d ((B i - A i) / L) →
      ∃ Z, value (f.round (a.add (product f (d, Model.CoreUtils.clamp (fun a b => Model.Kahan.less a b) t Model.FloatRay.zero len) j))) = some Z ∧
        |Z - along A B (clip (τ / L)) i| ≤ offSlack f R A B i := by
    intro i j a d ha hd
    have a0 := abs_nonneg (A i)
    have b2 : |B i - A i| ≤ 2 * R := (abs_sub _ _).trans (by linarith [bA i, bB i])
    have q1 : |B i - A i| / L * |clip (τ / L) * L| ≤ |B i - A i| := by
      rw [abs_of_nonneg C0]
      calc |B i - A i| / L * (clip (τ / L) * L) ≤ |B i - A i| / L * L := mul_le_mul_of_nonneg_left CL (div_nonneg (abs_nonneg _) hF.pos.le)
        _ = |B i - A i| := div_mul_cancel₀ _ hF.pos.ne'
    have q2 : |clip (τ / L) * L| * ((2 * R + 1) * f.tiny) + 2 * f.tiny ≤ 8 * (R + 1) ^ 2 * f.tiny := by
      rw [abs_of_nonneg C0]
      have : clip (τ / L) * L * ((2 * R + 1) * f.tiny) ≤ 4 * R * ((2 * R + 1) * f.tiny) := mul_le_mul_of_nonneg_right (CL.trans hF.short) (by positivity)
      linarith
    obtain ⟨Z, z1, -, -, z2⟩ := (along_one j ha hd cv (grow (l := 7) (by norm_num) (by linarith [bA i]) m hm.2)).mono (k' := 5) (M' := |A i| + |B i - A i|)
      (T' := 8 * (R + 1) ^ 2 * f.tiny) le_rfl (by linarith) q2
    refine ⟨Z, z1, ?_⟩
    rw [mul_div_cancel_right₀ _ hF.pos.ne'] at z2
    exact z2
  set t' := Model.CoreUtils.clamp (fun a b => Model.Kahan.less a b) t Model.FloatRay.zero len
  cases c with
  | three c1 c2 c3 =>
    obtain ⟨X, v1, w1⟩ := one 0 c1 hx n0
    obtain ⟨Y, v2, w2⟩ := one 1 c2 hy n1
    obtain ⟨Z, v3, w3⟩ := one 2 c3 hz n2
    have off : ∀ i, |(![X, Y, Z] : Fin 3 → ℚ) i - along A B (clip (τ / L)) i| ≤ offSlack f R A B i := by
      intro i
      fin_cases i
      · exact w1
      · exact w2
      · exact w3
    refine ⟨.three (f.round (x.add (product f (d0, t') c1))) (f.round (y.add (product f (d1, t') c2))) (f.round (z.add (product f (d2, t') c3))), ![X, Y, Z], ?_, ?_, ?_, ⟨clip (τ / L), s0, s1, off⟩, ?_⟩
    · unfold closestPoint
      rw [h1]
      simp only [Option.bind_eq_bind, Option.bind_some]
      have : projectDistance f k' (.three x y z) (.three d0 d1 d2) (.three x'' y'' z'') = some t := g1
      rw [this]
      rfl
    · simp [IsVec, Are, parts, v1, v2, v3]
    · intro a ha
      have hp1 : 1 ≤ f.p := by omega
      simp only [parts, List.mem_cons, List.not_mem_nil, or_false] at ha
      rcases ha with rfl | rfl | rfl <;> exact Verif.Proofs.Approx.round_is hp1 (fun s a h => Verif.Proofs.FloatBox.add_mag h)
    · intro s hs0 hs1
      have far := apart hp bA bB bQ S0 hF t2 off
      have near : away (along A B (clip (dots A B Q / squared A B))) Q ≤ away (along A B s) Q := by
        unfold away
        exact Real.sqrt_le_sqrt (by exact_mod_cast best A B Q S0 s hs0 hs1)
      have := away_triangle ![X, Y, Z] (along A B (clip (dots A B Q / squared A B))) Q
      linarith

/-- C185: the point that is found is on the segment but for five roundings, and no point of the segment is closer to the given one by more than about two hundred units of
round-off of the largest coordinate, if no square underflows or overflows. -/
theorem C185_closest_partial (f : Format) (hf : Usual f) (hp : 8 ≤ f.p) (k k' c : Store Bool 3) (hk : Contraction k) (p0 p1 q : Store Number 3) (A B Q : Fin 3 → ℚ) (R : ℚ)
    (hA : IsVec p0 A) (hB : IsVec p1 B) (hQ : IsVec q Q) (fA : ∀ x ∈ parts p0, f.Has x) (fB : ∀ x ∈ parts p1, f.Has x) (fQ : ∀ x ∈ parts q, f.Has x)
    (bA : ∀ i, |A i| ≤ R) (bB : ∀ i, |B i| ≤ R) (bQ : ∀ i, |Q i| ≤ R) (hm : Moderate f R A B) :
    ∃ x X, closestPoint f k k' c p0 p1 q = some x ∧ IsVec x X ∧
      (∃ s, 0 ≤ s ∧ s ≤ 1 ∧ ∀ i, |X i - along A B s i| ≤ offSlack f R A B i) ∧
      ∀ s, 0 ≤ s → s ≤ 1 → away X Q ≤ away (along A B s) Q + farSlack f R := by
  obtain ⟨x, X, h1, h2, -, h3, h4⟩ := closest_core f hf hp k k' c hk p0 p1 q A B Q R hA hB hQ fA fB fQ bA bB bQ hm
  exact ⟨x, X, h1, h2, h3, h4⟩

/-- The squared distance to a segment. -/
theorem distance_core (f : Format) (hf : Usual f) (hp : 8 ≤ f.p) (k k' k'' c : Store Bool 3) (hk : Contraction k) (hk'' : Contraction k'') (p0 p1 q : Store Number 3)
    (A B Q : Fin 3 → ℚ) (R : ℚ) (hA : IsVec p0 A) (hB : IsVec p1 B) (hQ : IsVec q Q) (fA : ∀ x ∈ parts p0, f.Has x) (fB : ∀ x ∈ parts p1, f.Has x)
    (fQ : ∀ x ∈ parts q, f.Has x) (bA : ∀ i, |A i| ≤ R) (bB : ∀ i, |B i| ≤ R) (bQ : ∀ i, |Q i| ≤ R) (hm : Moderate f R A B) :
    ∃ r S Z, distanceSquared f k k' k'' c p0 p1 q = some r ∧ value r = some S ∧ 0 ≤ Z ∧ S ≤ (1 + 8 * f.u) * Z + 4 * f.tiny ∧ Z ≤ (1 + 8 * f.u) * (S + 4 * f.tiny) ∧
      (∃ s, 0 ≤ s ∧ s ≤ 1 ∧ away (along A B s) Q ≤ √(Z : ℝ) + farSlack f R) ∧ ∀ s, 0 ≤ s → s ≤ 1 → √(Z : ℝ) ≤ away (along A B s) Q + farSlack f R := by
  have hu := u_pos f
  obtain ⟨hu1, hu7⟩ := small hp
  have ht := tiny_pos f
  have ht1 := tiny_le hf
  have R0 : 0 ≤ R := (abs_nonneg _).trans (bA 0)
  have R2 := mul_nonneg R0 R0
  have m : 0 ≤ 48 * (R + 1) ^ 2 := by positivity
  have p7 : 1 ≤ (1 + f.u) ^ 7 := one_le_pow₀ (by linarith)
  obtain ⟨x, X, h1, h2, h3, ⟨s, s0, s1, off⟩, h5⟩ := closest_core f hf hp k k' c hk p0 p1 q A B Q R hA hB hQ fA fB fQ bA bB bQ hm
  obtain ⟨o1, o2⟩ := off_away hp bA bB off
  have V0 : 0 ≤ (R + 1) ^ 2 * f.tiny := by positivity
  have gR : ((1 + f.u) ^ 7 - 1) * R ≤ 1 / 32 * R := mul_le_mul_of_nonneg_right (by linarith) R0
  have gR0 : 0 ≤ ((1 + f.u) ^ 7 - 1) * R := mul_nonneg (by linarith) R0
  have most : 48 * (R + 1) ^ 2 ≤ f.greatest := by
    have := mul_le_mul_of_nonneg_right p7 m
    linarith [hm.2]
  have V1 : (R + 1) ^ 2 * f.tiny ≤ 1 / 256 * (R + 1) := by
    have := mul_le_mul_of_nonneg_right (tiny_product hf hp R0 most) (show 0 ≤ R + 1 by linarith)
    linarith
  have near : ∀ i, |X i - Q i| ≤ 9 / 4 * (R + 1) := by
    intro i
    have q1 : |along A B s i| ≤ R := by
      have a := abs_le.1 (bA i)
      have b := abs_le.1 (bB i)
      unfold along
      refine abs_le.2 ⟨?_, ?_⟩ <;> nlinarith
    have q2 := o1 i
    have q3 : X i - Q i = (X i - along A B s i) + along A B s i + -Q i := by ring
    rw [q3]
    refine (abs_add_three _ _ _).trans ?_
    rw [abs_neg]
    linarith [bQ i]
  have sq : squared Q X ≤ 16 * (R + 1) ^ 2 := by
    have one : ∀ i, (X i - Q i) ^ 2 ≤ 81 / 16 * (R + 1) ^ 2 := by
      intro i
      rw [← sq_abs]
      calc |X i - Q i| ^ 2 ≤ (9 / 4 * (R + 1)) ^ 2 := pow_le_pow_left₀ (abs_nonneg _) (near i) 2
        _ = 81 / 16 * (R + 1) ^ 2 := by ring
    unfold squared
    linarith [one 0, one 1, one 2, sq_nonneg (R + 1)]
  have p5 : (1 + f.u) ^ 5 ≤ 33 / 32 := (pow_le_pow_right₀ (by linarith) (by norm_num)).trans hu7
  have Z0 : 0 ≤ squared Q X := by unfold squared; positivity
  obtain ⟨r, S, r1, r2, r3, r4⟩ := dist_near hp k'' hk'' h2 hQ h3 fQ (by
      have := mul_le_mul p5 sq Z0 (by norm_num)
      linarith [mul_nonneg R0 R0]) (by
      intro i
      have : (1 + f.u) * |X i - Q i| ≤ 257 / 256 * (9 / 4 * (R + 1)) := mul_le_mul (by linarith) (near i) (abs_nonneg _) (by norm_num)
      linarith [mul_nonneg R0 R0])
  have eZ : √((squared Q X : ℚ) : ℝ) = away X Q := by rw [away_comm]; rfl
  refine ⟨r, S, squared Q X, ?_, r2, Z0, r3, r4, ⟨s, s0, s1, ?_⟩, ?_⟩
  · unfold distanceSquared
    rw [h1]
    exact r1
  · rw [eZ]
    have t := away_triangle (along A B s) X Q
    rw [away_comm (along A B s) X] at t
    have : ((6 * (((1 + f.u) ^ 7 - 1) * R) + 18 * ((R + 1) ^ 2 * f.tiny) : ℚ) : ℝ) ≤ farSlack f R := by
      refine Rat.cast_le.2 ?_
      unfold farSlack
      linarith
    linarith
  · rw [eZ]
    exact h5

/-- C185: a point that a segment is said to contain is at most the square root of epsilon from a point of the segment, but for rounding. -/
theorem C185_contains_sound_partial (f : Format) (hf : Usual f) (hp : 8 ≤ f.p) (k k' k'' c : Store Bool 3) (hk : Contraction k) (hk'' : Contraction k'') (p0 p1 q : Store Number 3)
    (A B Q : Fin 3 → ℚ) (R : ℚ) (hA : IsVec p0 A) (hB : IsVec p1 B) (hQ : IsVec q Q) (fA : ∀ x ∈ parts p0, f.Has x) (fB : ∀ x ∈ parts p1, f.Has x)
    (fQ : ∀ x ∈ parts q, f.Has x) (bA : ∀ i, |A i| ≤ R) (bB : ∀ i, |B i| ≤ R) (bQ : ∀ i, |Q i| ≤ R) (hm : Moderate f R A B) (epsilon : Number) (E : ℚ)
    (hE : value epsilon = some E) (h : contains f k k' k'' c p0 p1 q epsilon = some true) :
    ∃ s, 0 ≤ s ∧ s ≤ 1 ∧ away (along A B s) Q ≤ √((1 + 8 * f.u) * (E + 4 * f.tiny) : ℚ) + farSlack f R := by
  have hu := u_pos f
  obtain ⟨r, S, Z, r1, r2, Z0, r3, r4, ⟨s, s0, s1, hs⟩, -⟩ := distance_core f hf hp k k' k'' c hk hk'' p0 p1 q A B Q R hA hB hQ fA fB fQ bA bB bQ hm
  unfold contains at h
  rw [r1] at h
  simp only [Option.bind_eq_bind, Option.bind_some, Option.some.injEq] at h
  have lt := (Proofs.FloatBox.less_values r2 hE).1 h
  refine ⟨s, s0, s1, hs.trans ?_⟩
  have : Z ≤ (1 + 8 * f.u) * (E + 4 * f.tiny) := r4.trans (mul_le_mul_of_nonneg_left (by linarith) (by linarith))
  have := Real.sqrt_le_sqrt ((Rat.cast_le (K := ℝ)).2 this)
  linarith

/-- C185: a point is contained by a segment if it is closer than the square root of epsilon to a point of it by as much as rounding can hide. -/
theorem C185_contains_complete_partial (f : Format) (hf : Usual f) (hp : 8 ≤ f.p) (k k' k'' c : Store Bool 3) (hk : Contraction k) (hk'' : Contraction k'')
    (p0 p1 q : Store Number 3) (A B Q : Fin 3 → ℚ) (R : ℚ) (hA : IsVec p0 A) (hB : IsVec p1 B) (hQ : IsVec q Q) (fA : ∀ x ∈ parts p0, f.Has x) (fB : ∀ x ∈ parts p1, f.Has x)
    (fQ : ∀ x ∈ parts q, f.Has x) (bA : ∀ i, |A i| ≤ R) (bB : ∀ i, |B i| ≤ R) (bQ : ∀ i, |Q i| ≤ R) (hm : Moderate f R A B) (epsilon : Number) (E : ℚ)
    (hE : value epsilon = some E) (s : ℚ) (h0 : 0 ≤ s) (h1 : s ≤ 1) (h : (1 + 8 * f.u) * (away (along A B s) Q + farSlack f R) ^ 2 + 4 * f.tiny < E) :
    contains f k k' k'' c p0 p1 q epsilon = some true := by
  have hu : (0 : ℝ) < f.u := by exact_mod_cast u_pos f
  obtain ⟨r, S, Z, r1, r2, Z0, r3, r4, -, hs⟩ := distance_core f hf hp k k' k'' c hk hk'' p0 p1 q A B Q R hA hB hQ fA fB fQ bA bB bQ hm
  have lt : S < E := by
    have a := hs s h0 h1
    have b : (Z : ℝ) ≤ (away (along A B s) Q + farSlack f R) ^ 2 := by
      rw [← Real.sq_sqrt (show (0 : ℝ) ≤ Z by exact_mod_cast Z0)]
      exact pow_le_pow_left₀ (Real.sqrt_nonneg _) a 2
    have d := mul_le_mul_of_nonneg_left b (show (0 : ℝ) ≤ 1 + 8 * f.u by linarith)
    have e := (Rat.cast_le (K := ℝ)).2 r3
    push_cast at e
    have : (S : ℝ) < E := by linarith
    exact_mod_cast this
  unfold contains
  rw [r1]
  simp only [Option.bind_eq_bind, Option.bind_some, Option.some.injEq]
  exact (Proofs.FloatBox.less_values r2 hE).2 lt

/-- C185: what `extend` returns starts where the segment does, and ends on its line, at the distance from the start that is the computed length and the given one, but for six
roundings. -/
theorem C185_extend_partial (f : Format) (hf : Usual f) (hp : 8 ≤ f.p) (k c : Store Bool 3) (hk : Contraction k) (p0 p1 : Store Number 3) (A B : Fin 3 → ℚ) (R : ℚ)
    (hA : IsVec p0 A) (hB : IsVec p1 B) (fA : ∀ x ∈ parts p0, f.Has x) (fB : ∀ x ∈ parts p1, f.Has x) (bA : ∀ i, |A i| ≤ R) (bB : ∀ i, |B i| ≤ R) (hm : Moderate f R A B)
    (by' : Number) (K : ℚ) (hK : value by' = some K) (bK : |K| ≤ R) :
    ∃ len L x X, length f k p0 p1 = some len ∧ value len = some L ∧ 0 < L ∧ |(L : ℝ) - away A B| ≤ ((1 + f.u) ^ 7 - 1) * away A B ∧
      extend f k c p0 p1 by' = some (p0, x) ∧ IsVec x X ∧
      ∀ i, |X i - along A B ((L + K) / L) i| ≤ ((1 + f.u) ^ 6 - 1) * (|A i| + |B i - A i| / L * (L + |K|)) + (1 + f.u) ^ 6 * (16 * (R + 1) ^ 2 * f.tiny) := by
  have hu := u_pos f
  obtain ⟨hu1, hu7⟩ := small hp
  have ht := tiny_pos f
  have ht1 := tiny_le hf
  have R0 : 0 ≤ R := (abs_nonneg _).trans (bA 0)
  have R2 := mul_nonneg R0 R0
  have tR : R * f.tiny ≤ R * (1 / 128) := mul_le_mul_of_nonneg_left ht1 R0
  have tR0 : 0 ≤ R * f.tiny := by positivity
  have tRR : R * R * f.tiny ≤ R * R * (1 / 128) := mul_le_mul_of_nonneg_left ht1 R2
  have tRR0 : 0 ≤ R * R * f.tiny := by positivity
  have tt : f.tiny * f.tiny ≤ 1 / 128 * f.tiny := mul_le_mul_of_nonneg_right ht1 ht.le
  have ttR : R * (f.tiny * f.tiny) ≤ R * (1 / 128 * f.tiny) := mul_le_mul_of_nonneg_left tt R0
  have m : 0 ≤ 48 * (R + 1) ^ 2 := by positivity
  have K0 := abs_nonneg K
  obtain ⟨d0, d1, d2, len, L, h1, h2, h3, hF, n0, n1, n2⟩ := direction_near f hf hp k hk p0 p1 A B R hA hB fA fB bA bB hm
  obtain ⟨x, y, z, rfl, hx, hy, hz⟩ := are3 hA
  have L0 := hF.pos
  have LR := hF.short
  have nC : Near f 1 (L + |K|) f.tiny (Op.add.eval f len by') (L + K) := by
    have := ((Near.exact f h3).add (Near.exact f hK)).round (by
      rw [abs_of_pos L0]
      exact grow (l := 7) (by norm_num) (by linarith) m hm.2)
    rw [abs_of_pos L0] at this
    exact this.mono (by norm_num) le_rfl (by linarith)
  have one : ∀ (i : Fin 3) (j : Bool) {a d : Number}, value a = some (A i) → Near f 3 (|B i - A i| / L) ((2 * R + 1) * f.tiny) d ((B i - A i) / L) →
      ∃ Z, value (f.round (a.add (product f (d, Op.add.eval f len by') j))) = some Z ∧ |Z - along A B ((L + K) / L) i| ≤
        ((1 + f.u) ^ 6 - 1) * (|A i| + |B i - A i| / L * (L + |K|)) + (1 + f.u) ^ 6 * (16 * (R + 1) ^ 2 * f.tiny) := by
    intro i j a d ha hd
    have a0 := abs_nonneg (A i)
    have ai := bA i
    have co := hF.comp i
    have c0 : 0 ≤ |B i - A i| / L := div_nonneg (abs_nonneg _) L0.le
    set r := |B i - A i| / L
    have rL : r * (L + |K|) ≤ 9 / 8 * (5 * R) := mul_le_mul co (by linarith) (by linarith) (by norm_num)
    have rL0 : 0 ≤ r * (L + |K|) := by positivity
    have rt : r * f.tiny ≤ 9 / 8 * f.tiny := mul_le_mul_of_nonneg_right co ht.le
    have Lt : (L + |K|) * ((2 * R + 1) * f.tiny) ≤ 5 * R * ((2 * R + 1) * f.tiny) := mul_le_mul_of_nonneg_right (by linarith) (by positivity)
    have q := hd.product nC j (grow (l := 7) (by norm_num) (by linarith) m hm.2)
    have w := (((Near.exact f ha).mono (k' := 3 + 1 + 1) (by norm_num) le_rfl le_rfl).add q).round (grow (l := 7) (by norm_num) (by linarith) m hm.2)
    obtain ⟨Z, z1, -, -, z2⟩ := w.mono (k' := 6) (M' := |A i| + r * (L + |K|)) (T' := 16 * (R + 1) ^ 2 * f.tiny) (by norm_num) (by linarith) (by linarith)
    refine ⟨Z, z1, ?_⟩
    have e : A i + (B i - A i) / L * (L + K) = along A B ((L + K) / L) i := by unfold along; ring
    rw [e] at z2
    exact z2
  cases c with
  | three c1 c2 c3 =>
    obtain ⟨X, v1, w1⟩ := one 0 c1 hx n0
    obtain ⟨Y, v2, w2⟩ := one 1 c2 hy n1
    obtain ⟨Z, v3, w3⟩ := one 2 c3 hz n2
    refine ⟨len, L, .three (f.round (x.add (product f (d0, Op.add.eval f len by') c1))) (f.round (y.add (product f (d1, Op.add.eval f len by') c2)))
      (f.round (z.add (product f (d2, Op.add.eval f len by') c3))), ![X, Y, Z], h2, h3, L0, hF.near, ?_, ?_, ?_⟩
    · unfold extend
      rw [h1]
      rfl
    · simp [IsVec, Are, parts, v1, v2, v3]
    · intro i
      fin_cases i
      · exact w1
      · exact w2
      · exact w3

/-- The points of the examples. -/
def start : Store Number 3 := .three (num 0) (num 0) (num 0)
def corner : Store Number 3 := .three (num 1) (num 1) (num 0)
def beside : Store Number 3 := .three (num 1) (num 0) (num 0)

theorem has_int (n : ℕ) (h : n < 2 ^ 24) : binary32.Has (num n) := by
  refine has32 (m := n) (k := 0) (by exact_mod_cast h) (by norm_num) (by simp) ?_
  have h1 : |(n : ℚ)| ≤ 2 ^ 24 := by
    rw [abs_of_nonneg (by positivity)]
    exact_mod_cast h.le
  exact h1.trans (by decide +kernel)

theorem has_zero : binary32.Has (num 0) := by exact_mod_cast has_int 0 (by norm_num)
theorem has_one : binary32.Has (num 1) := by exact_mod_cast has_int 1 (by norm_num)

theorem has_start : ∀ x ∈ parts start, binary32.Has x := by
  intro x hx
  simp only [start, parts, List.mem_cons, List.not_mem_nil, or_false] at hx
  rcases hx with rfl | rfl | rfl <;> exact has_zero

theorem has_corner : ∀ x ∈ parts corner, binary32.Has x := by
  intro x hx
  simp only [corner, parts, List.mem_cons, List.not_mem_nil, or_false] at hx
  rcases hx with rfl | rfl | rfl <;> first | exact has_zero | exact has_one

theorem has_beside : ∀ x ∈ parts beside, binary32.Has x := by
  intro x hx
  simp only [beside, parts, List.mem_cons, List.not_mem_nil, or_false] at hx
  rcases hx with rfl | rfl | rfl <;> first | exact has_zero | exact has_one

theorem is_start : IsVec start ![0, 0, 0] := by simp [IsVec, Are, start, parts, num, value, signed]
theorem is_corner : IsVec corner ![1, 1, 0] := by simp [IsVec, Are, corner, parts, num, value, signed]
theorem is_beside : IsVec beside ![1, 0, 0] := by simp [IsVec, Are, beside, parts, num, value, signed]
theorem plain_is : Contraction plain := by simp [Contraction, plain, parts]

theorem moderate : Moderate binary32 1 ![0, 0, 0] ![1, 1, 0] := by
  refine ⟨?_, by decide +kernel⟩
  have : squared ![0, 0, 0] ![1, 1, 0] = 2 := by simp [squared]; norm_num
  rw [this]
  decide +kernel

example : ∃ x X, midpoint binary32 start corner = some x ∧ IsVec x X ∧ ∀ i, min ((![0, 0, 0] : Fin 3 → ℚ) i) ((![1, 1, 0] : Fin 3 → ℚ) i) ≤ X i := by
  obtain ⟨x, X, h1, h2, h3⟩ := C185_midpoint_partial binary32 usual32 start corner ![0, 0, 0] ![1, 1, 0] is_start is_corner has_start has_corner (by decide +kernel)
  exact ⟨x, X, h1, h2, fun i => (h3 i).1⟩

example : ∃ x X, closestPoint binary32 plain plain plain start corner beside = some x ∧ IsVec x X ∧
    away X ![1, 0, 0] ≤ away (along ![0, 0, 0] ![1, 1, 0] (1 / 2)) ![1, 0, 0] + farSlack binary32 1 := by
  obtain ⟨x, X, h1, h2, -, h4⟩ := C185_closest_partial binary32 usual32 (by decide) plain plain plain plain_is start corner beside ![0, 0, 0] ![1, 1, 0] ![1, 0, 0] 1
    is_start is_corner is_beside has_start has_corner has_beside (by decide +kernel) (by decide +kernel) (by decide +kernel) moderate
  exact ⟨x, X, h1, h2, h4 (1 / 2) (by norm_num) (by norm_num)⟩

/-- The hypotheses of C185_contains_sound_partial and of C185_contains_complete_partial are met: a segment contains its start. -/
example : contains binary32 plain plain plain plain start corner start (defaultEpsilon binary32 6) = some true := by decide +kernel
example : contains binary32 plain plain plain plain start corner start (num 1) = some true := by
  refine C185_contains_complete_partial binary32 usual32 (by decide) plain plain plain plain plain_is plain_is start corner start ![0, 0, 0] ![1, 1, 0] ![0, 0, 0] 1
    is_start is_corner is_start has_start has_corner has_start (by decide +kernel) (by decide +kernel) (by decide +kernel) moderate (num 1) 1
    (by decide +kernel) 0 le_rfl (by norm_num) ?_
  have e : away (along ![0, 0, 0] ![1, 1, 0] 0) ![0, 0, 0] = 0 := by
    have : squared (along ![0, 0, 0] ![1, 1, 0] 0) ![0, 0, 0] = 0 := by simp [squared, along]
    unfold away
    rw [this]
    simp
  rw [e, zero_add]
  have : (1 + 8 * binary32.u) * farSlack binary32 1 ^ 2 + 4 * binary32.tiny < 1 := by decide +kernel
  have := (Rat.cast_lt (K := ℝ)).2 this
  push_cast at this ⊢
  exact this

example : ∃ x X, extend binary32 plain plain start corner (num 1) = some (start, x) ∧ IsVec x X := by
  obtain ⟨len, L, x, X, -, -, -, -, h1, h2, -⟩ := C185_extend_partial binary32 usual32 (by decide) plain plain plain_is start corner ![0, 0, 0] ![1, 1, 0] 1
    is_start is_corner has_start has_corner (by decide +kernel) (by decide +kernel) moderate (num 1) 1 (by decide +kernel) (by norm_num)
  exact ⟨x, X, h1, h2⟩

/-- C185: reversing a segment, of any numbers, changes neither its length nor the segment after another reversal. -/
theorem C185_reverse (f : Format) (k : Store Bool 3) (s : Store Number 3 × Store Number 3) :
    length f k (reverse s).1 (reverse s).2 = length f k s.1 s.2 ∧ (reverse s).1 = s.2 ∧ reverse (reverse s) = s := by
  refine ⟨?_, rfl, rfl⟩
  obtain ⟨p, q⟩ := s
  cases p with
  | three x y z =>
    cases q with
    | three x' y' z' =>
      cases k with
      | three k1 k2 k3 =>
        have e : ∀ a b c a' b' c' : Number, length f (.three k1 k2 k3) (.three a b c) (.three a' b' c') = some (sqrt f (Op.add.eval f (Op.add.eval f
            (product f (Op.sub.eval f a' a, Op.sub.eval f a' a) k1) (product f (Op.sub.eval f b' b, Op.sub.eval f b' b) k2)) (product f (Op.sub.eval f c' c, Op.sub.eval f c' c) k3))) :=
          fun _ _ _ _ _ _ => rfl
        show length f _ (.three x' y' z') (.three x y z) = length f _ (.three x y z) (.three x' y' z')
        rw [e, e, square_swap f x x', square_swap f y y', square_swap f z z']

/-- The lengths are those of numbers, not only of points that are equal. -/
example : length binary32 plain beside corner = some (num 1) := by decide +kernel

/-- C185 is violated at the ends: the point of the segment from (0, 0, 0) to (1, 1, 0) that is found for its own end is another one; and so is the end after it has been extended
by nothing. -/
theorem C185_end_violated :
    (closestPoint binary32 plain plain plain start corner corner).map parts = some [num (16777215 / 16777216), num (16777215 / 16777216), num 0] ∧
    (extend binary32 plain plain start corner (num 0)).map (parts ∘ Prod.snd) = some [num (16777215 / 16777216), num (16777215 / 16777216), num 0] := by decide +kernel

/-- C185 is violated by long segments: there are some that do not contain their own ends, with the default epsilon. -/
theorem C185_contains_violated : (∀ x ∈ [num 7781, num 9672], binary32.Has x) ∧
    contains binary32 plain plain plain plain start (.three (num 7781) (num 9672) (num 0)) (.three (num 7781) (num 9672) (num 0)) (defaultEpsilon binary32 6) = some false := by
  refine ⟨?_, by decide +kernel⟩
  intro x hx
  simp only [List.mem_cons, List.not_mem_nil, or_false] at hx
  rcases hx with rfl | rfl
  · exact_mod_cast has_int 7781 (by norm_num)
  · exact_mod_cast has_int 9672 (by norm_num)

/-- C185 is violated by short segments: though the ends are different, the closest point is NaN, and the start is not contained. -/
theorem C185_short_violated : binary32.Has (num (2 ^ (-80 : ℤ))) ∧
    (closestPoint binary32 plain plain plain start (.three (num (2 ^ (-80 : ℤ))) (num 0) (num 0)) start).map parts = some [.nan, .nan, .nan] ∧
    contains binary32 plain plain plain plain start (.three (num (2 ^ (-80 : ℤ))) (num 0) (num 0)) start (defaultEpsilon binary32 6) = some false := by
  refine ⟨?_, by decide +kernel, by decide +kernel⟩
  exact has32 (m := 1) (k := -80) (by norm_num) (by norm_num) (by rw [abs_of_pos (by positivity)]; simp) (by decide +kernel)

end Verif.Props.FloatSegment
