import Verif.Spec.TriangleRounding
import Verif.Model.FloatTriangle
import Verif.Proofs.FloatRay
import Verif.Props.FloatLength
import Mathlib.Tactic.Linarith
import Mathlib.Tactic.Positivity
import Mathlib.Tactic.FinCases
/-! # Lemmas for C184 -/
namespace Verif.Proofs.FloatTriangle
open Verif.Spec.IeeeArith Verif.Spec.FloatFormat Verif.Spec.FloatSqrt Verif.Spec.TriangleRounding
open Verif.Model.VectorStore hiding construct
open Verif.Model.FloatVector Verif.Model.FloatProducts Verif.Model.FloatTriangle
open Verif.Model.FloatRay (zero)
open Verif.Proofs.FloatVector Verif.Proofs.FloatProducts Verif.Proofs.FloatError Verif.Proofs.FloatPlane Verif.Proofs.FloatRay
open Verif.Props.FloatCross (are3)

theorem tiny_le {f : Format} (h : Usual f) : f.tiny ≤ 1 / 128 := by
  have h1 := h.bits
  have h2 := h.least
  have : f.emin - f.p ≤ (-7 : ℤ) := by omega
  calc f.tiny = (2 : ℚ) ^ (f.emin - f.p) := rfl
    _ ≤ 2 ^ (-7 : ℤ) := zpow_le_zpow_right₀ (by norm_num) this
    _ = 1 / 128 := by norm_num

/-- Each component is near. -/
def NearVec (f : Format) (k : ℕ) (M T : ℚ) (v : Store Number 3) (X : Fin 3 → ℚ) : Prop :=
  ∃ a b c, v = .three a b c ∧ Near f k M T a (X 0) ∧ Near f k M T b (X 1) ∧ Near f k M T c (X 2)

theorem sub_near {f : Format} {v w : Store Number 3} {X Y : Fin 3 → ℚ} {R : ℚ} (hv : IsVec v X) (hw : IsVec w Y) (hX : ∀ i, |X i| ≤ R) (hY : ∀ i, |Y i| ≤ R)
    (hg : (1 + f.u) ^ 1 * (2 * R + f.tiny) ≤ f.greatest) : ∃ d, binary .sub f v w = some d ∧ NearVec f 1 (2 * R) f.tiny d (X - Y) := by
  obtain ⟨x, y, z, rfl, hx, hy, hz⟩ := are3 hv
  obtain ⟨x', y', z', rfl, hx', hy', hz'⟩ := are3 hw
  have one : ∀ (i : Fin 3) (a b : Number), value a = some (X i) → value b = some (Y i) → Near f 1 (2 * R) f.tiny (Op.sub.eval f a b) ((X - Y) i) := by
    intro i a b ha hb
    have h := (((Near.exact f ha).mono (k' := 0) le_rfl (hX i) le_rfl).sub ((Near.exact f hb).mono (k' := 0) le_rfl (hY i) le_rfl)).round (by
      refine le_of_eq_of_le ?_ hg
      ring)
    exact h.mono le_rfl (by linarith) (by linarith)
  exact ⟨_, rfl, _, _, _, rfl, one 0 _ _ hx hx', one 1 _ _ hy hy', one 2 _ _ hz hz'⟩

theorem exact_vec {f : Format} {v : Store Number 3} {X : Fin 3 → ℚ} {S : ℚ} (hv : IsVec v X) (hX : ∀ i, |X i| ≤ S) : NearVec f 0 S 0 v X := by
  obtain ⟨x, y, z, rfl, hx, hy, hz⟩ := are3 hv
  exact ⟨_, _, _, rfl, (Near.exact f hx).mono le_rfl (hX 0) le_rfl, (Near.exact f hy).mono le_rfl (hX 1) le_rfl, (Near.exact f hz).mono le_rfl (hX 2) le_rfl⟩

theorem Near.nonneg {f : Format} {k : ℕ} {M T : ℚ} {x : Number} {X : ℚ} (h : Near f k M T x X) : 0 ≤ M ∧ 0 ≤ T := by
  obtain ⟨z, h1, h2, h3, h4⟩ := h
  exact ⟨(abs_nonneg X).trans h2, h3⟩

/-- The cross product of vectors. -/
def crossed (X Y : Fin 3 → ℚ) : Fin 3 → ℚ := ![X 1 * Y 2 - X 2 * Y 1, X 2 * Y 0 - X 0 * Y 2, X 0 * Y 1 - X 1 * Y 0]

theorem cross_near {f : Format} {k l : ℕ} {M T M' T' : ℚ} {v w : Store Number 3} {X Y : Fin 3 → ℚ} (c : (Bool × Bool) × (Bool × Bool) × (Bool × Bool))
    (hv : NearVec f k M T v X) (hw : NearVec f l M' T' w Y)
    (hg : (1 + f.u) ^ (k + l + 2) * (2 * (M * M') + (2 * (M * T' + M' * T + T * T' + f.tiny) + f.tiny)) ≤ f.greatest) :
    NearVec f (k + l + 2) (2 * (M * M')) (2 * (M * T' + M' * T + T * T' + f.tiny) + f.tiny) (cross f c.1 c.2.1 c.2.2 v w) (crossed X Y) := by
  obtain ⟨x, y, z, rfl, hx, hy, hz⟩ := hv
  obtain ⟨x', y', z', rfl, hx', hy', hz'⟩ := hw
  have ht := tiny_pos f
  obtain ⟨m, t⟩ := Near.nonneg hx
  obtain ⟨m', t'⟩ := Near.nonneg hx'
  have one : ∀ (b : Bool × Bool) {a a' d d' : Number} {A A' D D' : ℚ}, Near f k M T a A → Near f l M' T' a' A' → Near f k M T d D → Near f l M' T' d' D' →
      Near f (k + l + 2) (2 * (M * M')) (2 * (M * T' + M' * T + T * T' + f.tiny) + f.tiny) (difference f b (a, a') (d, d')) (A * A' - D * D') := by
    intro b a a' d d' A A' D D' h1 h2 h3 h4
    have i1 : 0 ≤ M * M' := by positivity
    have i2 : 0 ≤ M * T' + M' * T + T * T' := by positivity
    have g : (1 + f.u) ^ (k + l + 1) * (M * M' + (M * T' + M' * T + T * T' + f.tiny)) ≤ f.greatest := grow (l := k + l + 2) (by omega) (by linarith) (by linarith) hg
    have := ((h1.product h2 b.1 g).sub (h3.product h4 b.2 g)).round (by
      refine le_of_eq_of_le ?_ hg
      ring)
    exact this.mono le_rfl (by linarith) (by linarith)
  exact ⟨_, _, _, rfl, one c.1 hy hz' hz hy', one c.2.1 hz hx' hx hz', one c.2.2 hx hy' hy hx'⟩

/-- The dot product of vectors. -/
def dotted (X Y : Fin 3 → ℚ) : ℚ := X 0 * Y 0 + X 1 * Y 1 + X 2 * Y 2

theorem dot_near {f : Format} {k l : ℕ} {M T M' T' : ℚ} {v w : Store Number 3} {X Y : Fin 3 → ℚ} (c : Store Bool 3) (hv : NearVec f k M T v X) (hw : NearVec f l M' T' w Y)
    (hg : (1 + f.u) ^ (k + l + 3) * (3 * (M * M') + (3 * (M * T' + M' * T + T * T' + f.tiny) + 2 * f.tiny)) ≤ f.greatest) :
    ∃ r, dot f c v w = some r ∧ Near f (k + l + 3) (3 * (M * M')) (3 * (M * T' + M' * T + T * T' + f.tiny) + 2 * f.tiny) r (dotted X Y) := by
  obtain ⟨x, y, z, rfl, hx, hy, hz⟩ := hv
  obtain ⟨x', y', z', rfl, hx', hy', hz'⟩ := hw
  have ht := tiny_pos f
  obtain ⟨m, t⟩ := Near.nonneg hx
  obtain ⟨m', t'⟩ := Near.nonneg hx'
  have i1 : 0 ≤ M * M' := by positivity
  have i2 : 0 ≤ M * T' + M' * T + T * T' := by positivity
  have g : (1 + f.u) ^ (k + l + 1) * (M * M' + (M * T' + M' * T + T * T' + f.tiny)) ≤ f.greatest := grow (l := k + l + 3) (by omega) (by linarith) (by linarith) hg
  cases c with
  | three c1 c2 c3 =>
    have s := ((hx.product hx' c1 g).add (hy.product hy' c2 g)).round (grow (l := k + l + 3) (by omega) (by linarith) (by linarith) hg)
    have s' := (s.add ((hz.product hz' c3 g).mono (k' := k + l + 1 + 1) (by omega) le_rfl le_rfl)).round (grow (l := k + l + 3) (by omega) (by linarith) (by linarith) hg)
    exact ⟨_, rfl, s'.mono (by omega) (by linarith) (by linarith)⟩

/-- What `hits_triangle` decides from the four dot products. -/
def decision (f : Format) (epsilon : Number) (c : Bool × Bool) (det du dv dt : Number) : Option Number :=
  if Model.Kahan.less (Model.Kahan.abs det) epsilon then none
  else if Model.Kahan.less (Op.mul.eval f du (Op.div.eval f (.fin false 1) det)) zero || Model.Kahan.less (.fin false 1) (Op.mul.eval f du (Op.div.eval f (.fin false 1) det)) then none
  else if Model.Kahan.less (Op.mul.eval f dv (Op.div.eval f (.fin false 1) det)) zero ||
      Model.Kahan.less (.fin false 1) (f.round ((product f (du, Op.div.eval f (.fin false 1) det) c.1).add (product f (dv, Op.div.eval f (.fin false 1) det) c.2))) then none
  else some (Op.mul.eval f dt (Op.div.eval f (.fin false 1) det))

theorem hits_eq {f : Format} {epsilon : Number} {c : HitContraction} {r : Model.FloatRay.Ray} {p0 p1 p2 e1 e2 t : Store Number 3} {det du dv dt : Number}
    (h1 : binary .sub f p1 p0 = some e1) (h2 : binary .sub f p2 p0 = some e2) (h3 : binary .sub f r.origin p0 = some t)
    (hd : dot f c.det e1 (cross f c.pvec.1 c.pvec.2.1 c.pvec.2.2 r.direction e2) = some det)
    (hu : dot f c.u t (cross f c.pvec.1 c.pvec.2.1 c.pvec.2.2 r.direction e2) = some du)
    (hv : dot f c.v r.direction (cross f c.qvec.1 c.qvec.2.1 c.qvec.2.2 t e1) = some dv)
    (ht : dot f c.t e2 (cross f c.qvec.1 c.qvec.2.1 c.qvec.2.2 t e1) = some dt) :
    hitsTriangle f epsilon c r p0 p1 p2 = some (decision f epsilon c.sum det du dv dt) := by
  unfold hitsTriangle decision
  simp only [h1, h2, h3, hd, hu, hv, ht, Option.bind_eq_bind, Option.bind_some]
  split
  · rfl
  · split
    · rfl
    · split <;> rfl

theorem range_le {f : Format} {R S E : ℚ} (hR : 0 ≤ R) (hS : 0 ≤ S) (hE : 0 < E) (hg : HitInRange f R S E) : (1 + f.u) ^ 8 * (72 * (R + 1) ^ 3 * (S + 1)) ≤ f.greatest := by
  refine le_trans ?_ hg
  have hu := u_pos f
  have p : (1 + f.u) ^ 8 ≤ (1 + f.u) ^ 11 := pow_le_pow_right₀ (by linarith) (by norm_num)
  have b : 0 ≤ 144 * (R + 1) ^ 3 * (S + 1) := by positivity
  have : 1 ≤ 1 / E + 2 := by have : 0 < 1 / E := by positivity
                             linarith
  calc (1 + f.u) ^ 8 * (72 * (R + 1) ^ 3 * (S + 1)) ≤ (1 + f.u) ^ 8 * (144 * (R + 1) ^ 3 * (S + 1)) := mul_le_mul_of_nonneg_left (by linarith) (by positivity)
    _ ≤ (1 + f.u) ^ 11 * (144 * (R + 1) ^ 3 * (S + 1)) := mul_le_mul_of_nonneg_right p b
    _ = (1 + f.u) ^ 11 * (144 * (R + 1) ^ 3 * (S + 1)) * 1 := by ring
    _ ≤ _ := mul_le_mul_of_nonneg_left this (by positivity)

theorem dotted_crossed (X Y Z : Fin 3 → ℚ) : dotted X (crossed Y Z) = triple X Y Z := rfl

/-- The four dot products of `hits_triangle` are near the determinants. -/
theorem dots_near {f : Format} (hf : Usual f) (epsilon : Number) (c : HitContraction) {r : Model.FloatRay.Ray} {p0 p1 p2 : Store Number 3} {A B C P V : Fin 3 → ℚ} {R S E : ℚ}
    (hA : IsVec p0 A) (hB : IsVec p1 B) (hC : IsVec p2 C) (hP : IsVec r.origin P) (hV : IsVec r.direction V) (bA : ∀ i, |A i| ≤ R) (bB : ∀ i, |B i| ≤ R) (bC : ∀ i, |C i| ≤ R)
    (bP : ∀ i, |P i| ≤ R) (bV : ∀ i, |V i| ≤ S) (hE : 0 < E) (hg : HitInRange f R S E) :
    ∃ det du dv dt, hitsTriangle f epsilon c r p0 p1 p2 = some (decision f epsilon c.sum det du dv dt) ∧
      (∀ s a, det = .fin s a → 0 ≤ a) ∧
      Near f 7 (24 * R ^ 2 * S) (24 * (R + 1) * (S + 1) * f.tiny) det (triple (B - A) V (C - A)) ∧
      Near f 7 (24 * R ^ 2 * S) (24 * (R + 1) * (S + 1) * f.tiny) du (triple (P - A) V (C - A)) ∧
      Near f 7 (24 * R ^ 2 * S) (24 * (R + 1) * (S + 1) * f.tiny) dv (triple V (P - A) (B - A)) ∧
      Near f 8 (48 * R ^ 3) (72 * (R + 1) ^ 2 * f.tiny) dt (triple (C - A) (P - A) (B - A)) := by
  have hR : 0 ≤ R := (abs_nonneg _).trans (bA 0)
  have hS : 0 ≤ S := (abs_nonneg _).trans (bV 0)
  have ht := tiny_pos f
  have ht1 : f.tiny ≤ 1 := (tiny_le hf).trans (by norm_num)
  have h8 := range_le hR hS hE hg
  have RS : 0 ≤ R * S := by positivity
  have R2 : 0 ≤ R ^ 2 := by positivity
  have R3 : 0 ≤ R ^ 3 := by positivity
  have R2S : 0 ≤ R ^ 2 * S := by positivity
  have R3S : 0 ≤ R ^ 3 * S := by positivity
  have most : 0 ≤ 72 * (R + 1) ^ 3 * (S + 1) := by positivity
  set t := f.tiny
  have m1 : 0 ≤ 1 - t := by linarith
  have q0 : 0 ≤ t * (1 - t) := mul_nonneg ht.le m1
  have q1 : 0 ≤ R * (1 - t) := mul_nonneg hR m1
  have q2 : 0 ≤ S * (1 - t) := mul_nonneg hS m1
  have q3 : 0 ≤ R * S * (1 - t) := mul_nonneg RS m1
  have q4 : 0 ≤ R ^ 2 * (1 - t) := mul_nonneg R2 m1
  have q5 : 0 ≤ R * (t * (1 - t)) := mul_nonneg hR q0
  have q6 : 0 ≤ S * (t * (1 - t)) := mul_nonneg hS q0
  have q7 : 0 ≤ t * (t * (1 - t)) := mul_nonneg ht.le q0
  have q8 : 0 ≤ R * t := by positivity
  have q9 : 0 ≤ S * t := by positivity
  have q10 : 0 ≤ R * S * t := by positivity
  have q11 : 0 ≤ R ^ 2 * t := by positivity
  obtain ⟨e1, he1, n1⟩ := sub_near (f := f) hB hA bB bA (grow (l := 8) (by norm_num) (by linarith) most h8)
  obtain ⟨e2, he2, n2⟩ := sub_near (f := f) hC hA bC bA (grow (l := 8) (by norm_num) (by linarith) most h8)
  obtain ⟨tv, htv, n3⟩ := sub_near (f := f) hP hA bP bA (grow (l := 8) (by norm_num) (by linarith) most h8)
  have nV := exact_vec (f := f) hV bV
  have np := cross_near c.pvec nV n2 (grow (l := 8) (by norm_num) (by linarith) most h8)
  have nq := cross_near c.qvec n3 n1 (grow (l := 8) (by norm_num) (by linarith) most h8)
  obtain ⟨det, g1, d1⟩ := dot_near c.det n1 np (grow (l := 8) (by norm_num) (by linarith) most h8)
  obtain ⟨du, g2, d2⟩ := dot_near c.u n3 np (grow (l := 8) (by norm_num) (by linarith) most h8)
  obtain ⟨dv, g3, d3⟩ := dot_near c.v nV nq (grow (l := 8) (by norm_num) (by linarith) most h8)
  obtain ⟨dt, g4, d4⟩ := dot_near c.t n2 nq (grow (l := 8) (by norm_num) (by linarith) most h8)
  refine ⟨det, du, dv, dt, hits_eq he1 he2 htv g1 g2 g3 g4, dot_mag (by have := hf.bits; omega) g1, ?_, ?_, ?_, ?_⟩
  · exact d1.mono (by norm_num) (by linarith) (by linarith)
  · exact d2.mono (by norm_num) (by linarith) (by linarith)
  · exact d3.mono (by norm_num) (by linarith) (by linarith)
  · exact d4.mono (by norm_num) (by linarith) (by linarith)

/-- The error of a division by way of the reciprocal `I`; `n * I` is rounded or not. -/
theorem division {f : Format} {D I n x Q L : ℚ} (h0 : D ≠ 0) (hI : |I - 1 / D| ≤ f.u * |1 / D| + f.tiny) (hQ : |D| ≤ Q) (hL : |n| ≤ L)
    (hx : |x - n * I| ≤ f.u * |n * I| + f.tiny) : |x * D - n| ≤ divisionSlack f Q L := by
  have hu := u_pos f
  have ht := tiny_pos f
  have hD := abs_pos.2 h0
  have hw : |I * D - 1| ≤ f.u + f.tiny * Q := by
    have e : I * D - 1 = (I - 1 / D) * D := by field_simp
    rw [e, abs_mul]
    calc |I - 1 / D| * |D| ≤ (f.u * |1 / D| + f.tiny) * |D| := mul_le_mul_of_nonneg_right hI hD.le
      _ = f.u + f.tiny * |D| := by rw [abs_div, abs_one]; field_simp
      _ ≤ _ := by nlinarith
  have hw' : |I * D| ≤ 1 + f.u + f.tiny * Q := by
    have := abs_add_le (I * D - 1) 1
    rw [sub_add_cancel, abs_one] at this
    linarith
  have e : x * D - n = (x - n * I) * D + n * (I * D - 1) := by ring
  have t1 : |(x - n * I) * D| ≤ f.u * (|n| * |I * D|) + f.tiny * Q := by
    rw [abs_mul]
    calc |x - n * I| * |D| ≤ (f.u * |n * I| + f.tiny) * |D| := mul_le_mul_of_nonneg_right hx hD.le
      _ = f.u * (|n| * |I * D|) + f.tiny * |D| := by rw [abs_mul, abs_mul]; ring
      _ ≤ _ := by nlinarith
  have n0 := abs_nonneg n
  have t2 : |n * (I * D - 1)| ≤ |n| * (f.u + f.tiny * Q) := by rw [abs_mul]; exact mul_le_mul_of_nonneg_left hw n0
  have t3 : |n| * |I * D| ≤ |n| * (1 + f.u + f.tiny * Q) := mul_le_mul_of_nonneg_left hw' n0
  have Q0 : 0 ≤ Q := hD.le.trans hQ
  have g0 : 0 ≤ (1 + f.u) * (1 + f.u + f.tiny * Q) - 1 := by
    have : 0 ≤ f.tiny * Q := by positivity
    nlinarith
  rw [e]
  refine (abs_add_le _ _).trans ?_
  unfold divisionSlack
  have t4 : f.u * (|n| * |I * D|) ≤ f.u * (|n| * (1 + f.u + f.tiny * Q)) := mul_le_mul_of_nonneg_left t3 hu.le
  have t5 : ((1 + f.u) * (1 + f.u + f.tiny * Q) - 1) * |n| ≤ ((1 + f.u) * (1 + f.u + f.tiny * Q) - 1) * L := mul_le_mul_of_nonneg_left hL g0
  linarith

theorem low {f : Format} (hf : Usual f) {z : ℚ} (h : 0 ≤ rd f z) : (1 - f.u) * rd f z - 3 * f.tiny ≤ z := by
  have hu := u_pos f
  have hu8 := Verif.Proofs.FloatLength.u_le hf
  have ht := tiny_pos f
  have e := abs_le.1 (err f z)
  rcases le_total 0 z with hz | hz
  · rw [abs_of_nonneg hz] at e
    have : (1 - f.u) * rd f z ≤ (1 - f.u) * ((1 + f.u) * z + f.tiny) := mul_le_mul_of_nonneg_left (by linarith) (by linarith)
    nlinarith [mul_nonneg (mul_nonneg hu.le hu.le) hz]
  · rw [abs_of_nonpos hz] at e
    have : 0 ≤ f.u * rd f z := by positivity
    nlinarith

theorem abs_value' {x : Number} {X : ℚ} (hx : value x = some X) (hm : ∀ s a, x = .fin s a → 0 ≤ a) : value (Model.Kahan.abs x) = some |X| := by
  cases x with
  | nan => simp [value] at hx
  | inf s => simp [value] at hx
  | fin s a =>
    have := hm s a rfl
    simp only [value, Option.some.injEq] at hx
    subst hx
    cases s <;> simp [Model.Kahan.abs, value, signed, abs_of_nonneg this]

/-- What is decided, from the values of the dot products. -/
theorem decided {f : Format} (hf : Usual f) {epsilon : Number} {E : ℚ} (hE : value epsilon = some E) (E0 : 0 < E) (c : Bool × Bool) {det du dv dt : Number} {D n m l : ℚ}
    (hD : value det = some D) (hn : value du = some n) (hm : value dv = some m) (hl : value dt = some l) (mag : ∀ s a, det = .fin s a → 0 ≤ a) {Q L G : ℚ} (bD : |D| ≤ Q)
    (bn : |n| ≤ Q) (bm : |m| ≤ Q) (bl : |l| ≤ L) (hQ : Q ≤ G) (hL : L ≤ G) (h1 : 1 ≤ G) (hG : 2 * (1 + f.u) ^ 3 * G * (1 / E + 2) ≤ f.greatest) :
    (|D| < E → decision f epsilon c det du dv dt = none) ∧
    (E ≤ |D| → ∃ U W T, |U * D - n| ≤ divisionSlack f Q Q ∧ |W * D - m| ≤ divisionSlack f Q Q ∧ |T * D - l| ≤ divisionSlack f Q L ∧
      (∀ t, decision f epsilon c det du dv dt = some t → value t = some T ∧ 0 ≤ U ∧ 0 ≤ W ∧ (1 - f.u) ^ 2 * (U + W) ≤ 1 + 7 * f.tiny) ∧
      (0 ≤ n * D → 0 ≤ m * D → |n| + |m| + 2 * divisionSlack f Q Q ≤ |D| → ∃ t, decision f epsilon c det du dv dt = some t)) := by
  have hu := u_pos f
  have hu8 := Verif.Proofs.FloatLength.u_le hf
  have ht := tiny_pos f
  have ht1 := tiny_le hf
  have hp : 1 ≤ f.p := by have := hf.bits; omega
  have one : value (.fin false 1) = some 1 := by simp [value, signed]
  have zer : value zero = some 0 := by simp [zero, value, signed]
  have test := FloatBox.less_values (abs_value' hD mag) hE
  constructor
  · intro h
    unfold decision
    rw [if_pos (test.2 h)]
  intro hle
  have hD0 : D ≠ 0 := by rintro rfl; rw [abs_zero] at hle; linarith
  have hDp := abs_pos.2 hD0
  have iE : 0 < 1 / E := by positivity
  have bI : |rd f (1 / D)| ≤ (1 + f.u) * (1 / E) + f.tiny := by
    have e := err f (1 / D)
    have t := abs_add_le (rd f (1 / D) - 1 / D) (1 / D)
    rw [sub_add_cancel] at t
    have : |1 / D| ≤ 1 / E := by rw [abs_div, abs_one]; exact one_div_le_one_div_of_le E0 hle
    nlinarith
  have G0 : 0 < G := by linarith
  have p3 : 1 ≤ (1 + f.u) ^ 3 := one_le f 3
  -- the largest product
  have big : ∀ {a : ℚ}, |a| ≤ G → |a * rd f (1 / D)| ≤ (1 + f.u) * G * (1 / E + 1) := by
    intro a ha
    rw [abs_mul]
    calc |a| * |rd f (1 / D)| ≤ G * ((1 + f.u) * (1 / E) + f.tiny) := mul_le_mul ha bI (abs_nonneg _) G0.le
      _ ≤ G * ((1 + f.u) * (1 / E + 1)) := mul_le_mul_of_nonneg_left (by nlinarith) G0.le
      _ = _ := by ring
  have big' : ∀ {a : ℚ}, |a| ≤ G → |rd f (a * rd f (1 / D))| ≤ (1 + f.u) ^ 2 * G * (1 / E + 1) + f.tiny := by
    intro a ha
    have e := err f (a * rd f (1 / D))
    have t := abs_add_le (rd f (a * rd f (1 / D)) - a * rd f (1 / D)) (a * rd f (1 / D))
    rw [sub_add_cancel] at t
    have := mul_le_mul_of_nonneg_left (big ha) (by linarith : 0 ≤ 1 + f.u)
    linarith
  have K0 : 0 ≤ G * (1 / E + 1) := by positivity
  have fits : (1 + f.u) * (2 * ((1 + f.u) ^ 2 * G * (1 / E + 1) + f.tiny)) + f.tiny ≤ f.greatest := by
    refine le_trans ?_ hG
    have : (1 + f.u) * (2 * f.tiny) + f.tiny ≤ 2 * (1 + f.u) ^ 3 * G := by
      have : 1 * 1 ≤ (1 + f.u) ^ 3 * G := mul_le_mul p3 h1 (by norm_num) (by linarith)
      nlinarith
    linarith
  have P0 : 0 ≤ (1 + f.u) ^ 2 * G * (1 / E + 1) := by positivity
  have fits1 : (1 + f.u) ^ 2 * G * (1 / E + 1) + f.tiny ≤ f.greatest := by nlinarith
  have fits0 : (1 + f.u) * (1 / E) + f.tiny ≤ f.greatest := by
    refine le_trans ?_ fits1
    have : (1 + f.u) * (1 / E) ≤ (1 + f.u) ^ 2 * G * (1 / E) := by
      have : 1 * 1 ≤ (1 + f.u) * G := mul_le_mul (by linarith) h1 (by norm_num) (by linarith)
      have := mul_le_mul_of_nonneg_right this (by positivity : 0 ≤ (1 + f.u) * (1 / E))
      linarith
    have : 0 ≤ (1 + f.u) ^ 2 * G := by positivity
    linarith
  have hinv : value (Op.div.eval f (.fin false 1) det) = some (rd f (1 / D)) := value_round f (value_div one hD hD0) (bI.trans fits0)
  have val : ∀ {x : Number} {a : ℚ}, value x = some a → |a| ≤ G → value (Op.mul.eval f x (Op.div.eval f (.fin false 1) det)) = some (rd f (a * rd f (1 / D))) := by
    intro x a hx ha
    exact value_round f (value_mul hx hinv) ((big' ha).trans fits1)
  have prod : ∀ {x : Number} {a : ℚ} (b : Bool), value x = some a → |a| ≤ G → ∃ z, value (product f (x, Op.div.eval f (.fin false 1) det) b) = some z ∧
      (z = a * rd f (1 / D) ∨ z = rd f (a * rd f (1 / D))) := by
    intro x a b hx ha
    cases b
    · exact ⟨_, val hx ha, .inr rfl⟩
    · exact ⟨_, value_mul hx hinv, .inl rfl⟩
  have nG := bn.trans hQ
  have mG := bm.trans hQ
  have lG := bl.trans hL
  have hI := err f (1 / D)
  obtain ⟨x, vx, ex⟩ := prod c.1 hn nG
  obtain ⟨y, vy, ey⟩ := prod c.2 hm mG
  have small : ∀ {a z : ℚ}, |a| ≤ G → (z = a * rd f (1 / D) ∨ z = rd f (a * rd f (1 / D))) → |z| ≤ (1 + f.u) ^ 2 * G * (1 / E + 1) + f.tiny := by
    rintro a z ha (rfl | rfl)
    · refine (big ha).trans ?_
      have : (1 + f.u) * (G * (1 / E + 1)) ≤ (1 + f.u) ^ 2 * (G * (1 / E + 1)) := mul_le_mul_of_nonneg_right (by nlinarith) K0
      linarith
    · exact big' ha
  have vs : value (f.round ((product f (du, Op.div.eval f (.fin false 1) det) c.1).add (product f (dv, Op.div.eval f (.fin false 1) det) c.2))) = some (rd f (x + y)) := by
    refine value_round f (value_add vx vy) ?_
    have e := err f (x + y)
    have t := abs_add_le (rd f (x + y) - (x + y)) (x + y)
    rw [sub_add_cancel] at t
    have := small nG ex
    have := small mG ey
    have := abs_add_le x y
    have : (1 + f.u) * |x + y| ≤ (1 + f.u) * (2 * ((1 + f.u) ^ 2 * G * (1 / E + 1) + f.tiny)) := mul_le_mul_of_nonneg_left (by linarith) (by linarith)
    linarith
  have lu0 := FloatBox.less_values (val hn nG) zer
  have lu1 := FloatBox.less_values one (val hn nG)
  have lv0 := FloatBox.less_values (val hm mG) zer
  have ls := FloatBox.less_values one vs
  have self : ∀ a : ℚ, |rd f (a * rd f (1 / D)) - a * rd f (1 / D)| ≤ f.u * |a * rd f (1 / D)| + f.tiny := fun a => err f _
  refine ⟨rd f (n * rd f (1 / D)), rd f (m * rd f (1 / D)), rd f (l * rd f (1 / D)), division hD0 hI bD bn (self n), division hD0 hI bD bm (self m),
    division hD0 hI bD bl (self l), ?_, ?_⟩
  · intro t h
    unfold decision at h
    split at h
    · cases h
    split at h
    · cases h
    rename_i g1
    split at h
    · cases h
    rename_i g2
    simp only [Bool.or_eq_true, not_or, lu0, lu1, lv0, ls, not_lt] at g1 g2
    cases h
    refine ⟨val hl lG, g1.1, g2.1, ?_⟩
    have bx : (1 - f.u) * rd f (n * rd f (1 / D)) - 3 * f.tiny ≤ x := by
      rcases ex with rfl | rfl
      · exact low hf g1.1
      · nlinarith [g1.1]
    have bY : (1 - f.u) * rd f (m * rd f (1 / D)) - 3 * f.tiny ≤ y := by
      rcases ey with rfl | rfl
      · exact low hf g2.1
      · nlinarith [g2.1]
    have e := abs_le.1 (err f (x + y))
    have g3 := g2.2
    have k : (1 - f.u) * (rd f (n * rd f (1 / D)) + rd f (m * rd f (1 / D))) ≤ x + y + 6 * f.tiny := by linarith
    have k' := mul_le_mul_of_nonneg_left k (by linarith : 0 ≤ 1 - f.u)
    rcases le_total 0 (x + y) with hs | hs
    · rw [abs_of_nonneg hs] at e
      have : 0 ≤ f.u * (6 * f.tiny) := by positivity
      linarith
    · have : (1 - f.u) * (x + y + 6 * f.tiny) ≤ (1 - f.u) * (6 * f.tiny) := mul_le_mul_of_nonneg_left (by linarith) (by linarith)
      have : 0 ≤ f.u * (6 * f.tiny) := by positivity
      linarith
  · intro h2 h3 h4
    have sg : ∀ {a : ℚ}, 0 ≤ a * D → 0 ≤ a * rd f (1 / D) := by
      intro a ha
      rcases lt_or_gt_of_ne hD0 with hd | hd
      · have a0 : a ≤ 0 := nonpos_of_mul_nonneg_left ha hd
        have : rd f (1 / D) = -rd f (1 / -D) := by rw [← Kahan.rd_neg]; congr 1; field_simp
        rw [this]
        have := Kahan.rd_nonneg (f := f) hp (a := 1 / -D) (one_div_nonneg.2 (by linarith))
        rw [mul_neg, ← neg_mul]
        exact mul_nonneg (by linarith) this
      · have a0 : 0 ≤ a := nonneg_of_mul_nonneg_left ha hd
        exact mul_nonneg a0 (Kahan.rd_nonneg hp (one_div_nonneg.2 hd.le))
    have rn : ∀ {a z : ℚ}, 0 ≤ a * D → (z = a * rd f (1 / D) ∨ z = rd f (a * rd f (1 / D))) → 0 ≤ z := by
      rintro a z ha (rfl | rfl)
      · exact sg ha
      · exact Kahan.rd_nonneg hp (sg ha)
    have acc : ∀ {a z : ℚ}, |a| ≤ Q → (z = a * rd f (1 / D) ∨ z = rd f (a * rd f (1 / D))) → |z * D - a| ≤ divisionSlack f Q Q := by
      rintro a z ha (rfl | rfl)
      · exact division hD0 hI bD ha (by rw [sub_self, abs_zero]; positivity)
      · exact division hD0 hI bD ha (self a)
    have up : ∀ {a z : ℚ}, |a| ≤ Q → 0 ≤ a * D → (z = a * rd f (1 / D) ∨ z = rd f (a * rd f (1 / D))) → z * |D| ≤ |a| + divisionSlack f Q Q := by
      intro a z ha h0 hz
      have := acc ha hz
      have t := abs_add_le (z * D - a) a
      rw [sub_add_cancel, abs_mul, abs_of_nonneg (rn h0 hz)] at t
      linarith
    have dq : 0 ≤ divisionSlack f Q Q := (abs_nonneg _).trans (acc bn (.inr rfl))
    have U1 : rd f (n * rd f (1 / D)) ≤ 1 := by
      have := up bn h2 (.inr rfl)
      have := abs_nonneg m
      exact le_of_mul_le_mul_right (by linarith : _ * |D| ≤ 1 * |D|) hDp
    have s1 : x + y ≤ 1 := by
      have := up bn h2 ex
      have := up bm h3 ey
      exact le_of_mul_le_mul_right (by linarith : _ * |D| ≤ 1 * |D|) hDp
    have s0 : 0 ≤ x + y := add_nonneg (rn h2 ex) (rn h3 ey)
    have r1 : rd f (x + y) ≤ 1 := by
      have := Approx.rd_mono (f := f) hp s0 s1
      have e : rd f 1 = 1 := by
        have := rd_exact f hp 1 0 (by rw [abs_one]; exact one_le_pow₀ (by norm_num)) (by have := hf.least; omega)
        simpa using this
      rwa [e] at this
    have n1 : ¬ |D| < E := not_lt.2 hle
    refine ⟨Op.mul.eval f dt (Op.div.eval f (.fin false 1) det), ?_⟩
    · unfold decision
      rw [if_neg (by rw [test]; exact n1), if_neg, if_neg]
      · simp only [Bool.or_eq_true, not_or, lv0, ls, not_lt]
        exact ⟨rn h3 (.inr rfl), r1⟩
      · simp only [Bool.or_eq_true, not_or, lu0, lu1, not_lt]
        exact ⟨rn h2 (.inr rfl), U1⟩

theorem cramer (E1 E2 V X : Fin 3 → ℚ) (i : Fin 3) :
    triple E1 V E2 * X i = triple X V E2 * E1 i + triple V X E1 * E2 i - triple E2 X E1 * V i := by
  unfold triple
  fin_cases i
  · show _ * X 0 = _ * E1 0 + _ * E2 0 - _ * V 0
    ring
  · show _ * X 1 = _ * E1 1 + _ * E2 1 - _ * V 1
    ring
  · show _ * X 2 = _ * E1 2 + _ * E2 2 - _ * V 2
    ring

/-- The values of the dot products, and what is decided from them. -/
theorem summary {f : Format} (hf : Usual f) {epsilon : Number} {E : ℚ} (hE : value epsilon = some E) (E0 : 0 < E) (c : HitContraction) {r : Model.FloatRay.Ray}
    {p0 p1 p2 : Store Number 3} {A B C P V : Fin 3 → ℚ} {R S : ℚ} (hA : IsVec p0 A) (hB : IsVec p1 B) (hC : IsVec p2 C) (hP : IsVec r.origin P) (hV : IsVec r.direction V)
    (bA : ∀ i, |A i| ≤ R) (bB : ∀ i, |B i| ≤ R) (bC : ∀ i, |C i| ≤ R) (bP : ∀ i, |P i| ≤ R) (bV : ∀ i, |V i| ≤ S) (hg : HitInRange f R S E) :
    ∃ h D n m l, hitsTriangle f epsilon c r p0 p1 p2 = some h ∧ |D - triple (B - A) V (C - A)| ≤ seenSlack f R S ∧ |n - triple (P - A) V (C - A)| ≤ seenSlack f R S ∧
      |m - triple V (P - A) (B - A)| ≤ seenSlack f R S ∧ |l - triple (C - A) (P - A) (B - A)| ≤ depthSlack f R ∧ (|D| < E → h = none) ∧
      (E ≤ |D| → ∃ U W T, |U * D - n| ≤ divisionSlack f (seenMost f R S) (seenMost f R S) ∧ |W * D - m| ≤ divisionSlack f (seenMost f R S) (seenMost f R S) ∧
        |T * D - l| ≤ divisionSlack f (seenMost f R S) (depthMost f R) ∧
        (∀ t, h = some t → value t = some T ∧ 0 ≤ U ∧ 0 ≤ W ∧ (1 - f.u) ^ 2 * (U + W) ≤ 1 + 7 * f.tiny) ∧
        (0 ≤ n * D → 0 ≤ m * D → |n| + |m| + 2 * divisionSlack f (seenMost f R S) (seenMost f R S) ≤ |D| → ∃ t, h = some t)) := by
  have hR : 0 ≤ R := (abs_nonneg _).trans (bA 0)
  have hS : 0 ≤ S := (abs_nonneg _).trans (bV 0)
  have ht := tiny_pos f
  have hu := u_pos f
  have ht1 : f.tiny ≤ 1 := (tiny_le hf).trans (by norm_num)
  obtain ⟨det, du, dv, dt, e, mag, n1, n2, n3, n4⟩ := dots_near hf epsilon c hA hB hC hP hV bA bB bC bP bV E0 hg
  obtain ⟨D, v1, -, -, s1⟩ := id n1
  obtain ⟨n, v2, -, -, s2⟩ := id n2
  obtain ⟨m, v3, -, -, s3⟩ := id n3
  obtain ⟨l, v4, -, -, s4⟩ := id n4
  have most : ∀ {k : ℕ} {M T x : ℚ} {y : Number} {Y : ℚ}, Near f k M T y Y → value y = some x → |x| ≤ (1 + f.u) ^ k * (M + T) := by
    intro k M T x y Y h hx
    obtain ⟨z, h1, h2⟩ := h.mag
    rw [hx, Option.some.injEq] at h1
    rwa [h1]
  have RS : 0 ≤ R * S := by positivity
  have R2 : 0 ≤ R ^ 2 := by positivity
  have R3 : 0 ≤ R ^ 3 := by positivity
  have R2S : 0 ≤ R ^ 2 * S := by positivity
  have R3S : 0 ≤ R ^ 3 * S := by positivity
  have m1 : 0 ≤ 1 - f.tiny := by linarith
  have big : 0 ≤ 72 * (R + 1) ^ 3 * (S + 1) := by positivity
  have a1 := mul_nonneg hR m1
  have a2 := mul_nonneg hS m1
  have a3 := mul_nonneg RS m1
  have a4 := mul_nonneg R2 m1
  obtain ⟨d1, d2⟩ := decided hf hE E0 c.sum v1 v2 v3 v4 mag (Q := seenMost f R S) (L := depthMost f R) (G := (1 + f.u) ^ 8 * (72 * (R + 1) ^ 3 * (S + 1)))
    (most n1 v1) (most n2 v2) (most n3 v3) (most n4 v4)
    (grow (l := 8) (by norm_num) (by linarith) big le_rfl) (grow (l := 8) (by norm_num) (by linarith) big le_rfl)
    (by have := one_le f 8
        have : 1 ≤ 72 * (R + 1) ^ 3 * (S + 1) := by linarith
        nlinarith)
    (by refine le_of_eq_of_le ?_ hg
        ring)
  exact ⟨_, D, n, m, l, e, s1, s2, s3, s4, d1, d2⟩

end Verif.Proofs.FloatTriangle
