import Verif.Spec.Weights
import Verif.Model.FloatWeights
import Verif.Proofs.FloatTriangle
import Mathlib.Tactic.LinearCombination
/-! # Lemmas for C187 -/
namespace Verif.Proofs.FloatWeights
open Verif.Spec.IeeeArith Verif.Spec.FloatFormat Verif.Spec.FloatSqrt Verif.Spec.TriangleRounding Verif.Spec.Weights
open Verif.Model.VectorStore hiding construct
open Verif.Model.FloatVector Verif.Model.FloatProducts Verif.Model.FloatWeights
open Verif.Model.FloatRay (zero)
open Verif.Proofs.FloatVector Verif.Proofs.FloatProducts Verif.Proofs.FloatError Verif.Proofs.FloatPlane Verif.Proofs.FloatRay Verif.Proofs.FloatTriangle
open Verif.Props.FloatCross (are3)

/-! ## What is finite -/

def Finite (x : Number) : Prop := ∃ X, value x = some X

theorem finite_round {f : Format} {x : Number} (h : Finite (f.round x)) : Finite x := by
  obtain ⟨X, h⟩ := h
  cases x with
  | nan => simp [Format.round, Number.round, value] at h
  | inf s => simp [Format.round, Number.round, value] at h
  | fin s a => exact ⟨_, rfl⟩

theorem finite_mul {x y : Number} (h : Finite (x.mul y)) : Finite x ∧ Finite y := by
  obtain ⟨X, h⟩ := h
  cases x <;> cases y <;> simp only [Number.mul] at h
  case fin.fin => exact ⟨⟨_, rfl⟩, _, rfl⟩
  all_goals first | (simp [value] at h; done) | (split at h <;> simp [value] at h)

theorem finite_add {x y : Number} (h : Finite (x.add y)) : Finite x ∧ Finite y := by
  obtain ⟨X, h⟩ := h
  cases x <;> cases y <;> simp only [Number.add] at h
  case fin.fin => exact ⟨⟨_, rfl⟩, _, rfl⟩
  all_goals first | (simp [value] at h; done) | (split at h <;> simp [value] at h)

theorem finite_negate {x : Number} (h : Finite x.negate) : Finite x := by
  obtain ⟨X, h⟩ := h
  cases x with
  | nan => simp [Number.negate, value] at h
  | inf s => simp [Number.negate, value] at h
  | fin s a => exact ⟨_, rfl⟩

theorem finite_sub {x y : Number} (h : Finite (x.sub y)) : Finite x ∧ Finite y := (finite_add h).imp id finite_negate

theorem finite_product {f : Format} {x y : Number} {c : Bool} (h : Finite (product f (x, y) c)) : Finite x ∧ Finite y := by
  cases c
  · exact finite_mul (finite_round h)
  · exact finite_mul h

theorem finite_difference {f : Format} {k : Bool × Bool} {a b c d : Number} (h : Finite (difference f k (a, b) (c, d))) :
    (Finite a ∧ Finite b) ∧ Finite c ∧ Finite d := (finite_sub (finite_round h)).imp finite_product finite_product

theorem finite_dot {f : Format} {k1 k2 k3 : Bool} {a b c a' b' c' r : Number} (h : dot f (.three k1 k2 k3) (.three a b c) (.three a' b' c') = some r) (hr : Finite r) :
    (Finite a ∧ Finite a') ∧ (Finite b ∧ Finite b') ∧ Finite c ∧ Finite c' := by
  cases h
  obtain ⟨h1, h2⟩ := finite_add (finite_round hr)
  obtain ⟨h3, h4⟩ := finite_add (finite_round h1)
  exact ⟨finite_product h3, finite_product h4, finite_product h2⟩

/-! ## What is zero -/

theorem rd_zero (f : Format) : rd f 0 = 0 := by
  have := Kahan.rd_neg f 0
  rw [neg_zero] at this
  linarith

theorem value_sub' {x y : Number} {X Y : ℚ} (hx : value x = some X) (hy : value y = some Y) : value (x.sub y) = some (X - Y) := by
  rw [sub_eq_add_neg]; exact value_add hx (value_negate hy)

theorem zero_round {f : Format} (hg : 0 ≤ f.greatest) {x : Number} (h : value x = some 0) : value (f.round x) = some 0 := by
  have := value_round f h (by rw [rd_zero, abs_zero]; exact hg)
  rwa [rd_zero] at this

theorem zero_product {f : Format} (hg : 0 ≤ f.greatest) {x y : Number} {X Y : ℚ} (c : Bool) (hx : value x = some X) (hy : value y = some Y) (h : X = 0 ∨ Y = 0) :
    value (product f (x, y) c) = some 0 := by
  have e := value_mul hx hy
  rw [mul_eq_zero.2 h] at e
  cases c
  · exact zero_round hg e
  · exact e

theorem zero_difference {f : Format} (hg : 0 ≤ f.greatest) {a b c d : Number} {A B C D : ℚ} (k : Bool × Bool) (ha : value a = some A) (hb : value b = some B)
    (hc : value c = some C) (hd : value d = some D) (h : A = 0 ∨ B = 0) (h' : C = 0 ∨ D = 0) : value (difference f k (a, b) (c, d)) = some 0 := by
  have := value_sub' (zero_product hg k.1 ha hb h) (zero_product hg k.2 hc hd h')
  rw [sub_zero] at this
  exact zero_round hg this

theorem zero_dot {f : Format} (hg : 0 ≤ f.greatest) (c : Store Bool 3) {v w : Store Number 3} {X Y : Fin 3 → ℚ} (hv : IsVec v X) (hw : IsVec w Y) (h : ∀ i, X i = 0 ∨ Y i = 0) :
    ∃ r, dot f c v w = some r ∧ value r = some 0 := by
  obtain ⟨x, y, z, rfl, hx, hy, hz⟩ := are3 hv
  obtain ⟨x', y', z', rfl, hx', hy', hz'⟩ := are3 hw
  cases c with
  | three c1 c2 c3 =>
    have h1 := value_add (zero_product hg c1 hx hx' (h 0)) (zero_product hg c2 hy hy' (h 1))
    rw [add_zero] at h1
    have h2 := value_add (zero_round hg h1) (zero_product hg c3 hz hz' (h 2))
    rw [add_zero] at h2
    exact ⟨_, rfl, zero_round hg h2⟩

theorem vec3 {a b c : Number} {A B C : ℚ} (ha : value a = some A) (hb : value b = some B) (hc : value c = some C) : IsVec (.three a b c) ![A, B, C] := by
  simp [IsVec, Verif.Spec.Representable.Are, parts, ha, hb, hc]

theorem zero_cross {f : Format} (hg : 0 ≤ f.greatest) (c : (Bool × Bool) × (Bool × Bool) × (Bool × Bool)) {v w : Store Number 3} {X Y : Fin 3 → ℚ} (hv : IsVec v X) (hw : IsVec w Y)
    (h : X = 0 ∨ Y = 0) : IsVec (cross f c.1 c.2.1 c.2.2 v w) 0 := by
  obtain ⟨x, y, z, rfl, hx, hy, hz⟩ := are3 hv
  obtain ⟨x', y', z', rfl, hx', hy', hz'⟩ := are3 hw
  have h' : ∀ i j, X i = 0 ∨ Y j = 0 := fun i j => h.imp (fun h => by rw [h]; rfl) fun h => by rw [h]; rfl
  have := vec3 (zero_difference hg c.1 hy hz' hz hy' (h' 1 2) (h' 2 1)) (zero_difference hg c.2.1 hz hx' hx hz' (h' 2 0) (h' 0 2))
    (zero_difference hg c.2.2 hx hy' hy hx' (h' 0 1) (h' 1 0))
  have e : (![0, 0, 0] : Fin 3 → ℚ) = 0 := by funext i; fin_cases i <;> rfl
  rwa [e] at this

theorem near_vec {f : Format} {k : ℕ} {M T : ℚ} {v : Store Number 3} {X : Fin 3 → ℚ} (h : NearVec f k M T v X) : ∃ Y, IsVec v Y := by
  obtain ⟨a, b, c, rfl, ⟨A, ha, -⟩, ⟨B, hb, -⟩, ⟨C, hc, -⟩⟩ := h
  exact ⟨_, vec3 ha hb hc⟩

theorem sub_self_vec {f : Format} (hg : 0 ≤ f.greatest) {v : Store Number 3} {X : Fin 3 → ℚ} (hv : IsVec v X) : ∃ d, binary .sub f v v = some d ∧ IsVec d 0 := by
  obtain ⟨x, y, z, rfl, hx, hy, hz⟩ := are3 hv
  have one : ∀ {a : Number} {A : ℚ}, value a = some A → value (Op.sub.eval f a a) = some 0 := by
    intro a A ha
    have := value_sub' ha ha
    rw [sub_self] at this
    exact zero_round hg this
  have := vec3 (one hx) (one hy) (one hz)
  have e : (![0, 0, 0] : Fin 3 → ℚ) = 0 := by funext i; fin_cases i <;> rfl
  rw [e] at this
  exact ⟨_, rfl, this⟩

theorem atLeast_zero {x : Number} {X : ℚ} (h : value x = some X) : Model.Kahan.atLeast x zero = true ↔ 0 ≤ X := by
  have := FloatBox.less_values h (show value zero = some 0 by simp [zero, value, signed])
  cases x with
  | nan => simp [value] at h
  | inf s => simp [value] at h
  | fin s a =>
    rw [← not_lt, ← this, show Model.Kahan.atLeast (.fin s a) zero = !Model.Kahan.less (.fin s a) zero from rfl]
    simp

/-! ## What is near -/

theorem difference_near {f : Format} {k : ℕ} {M T : ℚ} {a b c d : Number} {A B C D : ℚ} (q : Bool × Bool) (ha : Near f k M T a A) (hb : Near f k M T b B) (hc : Near f k M T c C)
    (hd : Near f k M T d D) (hg : (1 + f.u) ^ (k + k + 2) * (2 * (M * M) + (2 * (M * T + M * T + T * T + f.tiny) + f.tiny)) ≤ f.greatest) :
    Near f (k + k + 2) (2 * (M * M)) (2 * (M * T + M * T + T * T + f.tiny) + f.tiny) (difference f q (a, b) (c, d)) (A * B - C * D) := by
  have ht := tiny_pos f
  obtain ⟨m, t⟩ := Near.nonneg ha
  have i1 : 0 ≤ M * M := by positivity
  have i2 : 0 ≤ M * T + M * T + T * T := by positivity
  have g : (1 + f.u) ^ (k + k + 1) * (M * M + (M * T + M * T + T * T + f.tiny)) ≤ f.greatest := grow (l := k + k + 2) (by omega) (by linarith) (by linarith) hg
  have := ((ha.product hb q.1 g).sub (hc.product hd q.2 g)).round (by
    refine le_of_eq_of_le ?_ hg
    ring)
  exact this.mono le_rfl (by linarith) (by linarith)

theorem small_terms {f : Format} (hf : Usual f) {R : ℚ} (hR : 0 ≤ R) :
    2 * R + f.tiny ≤ 900 * (R + 1) ^ 4 ∧
    3 * (2 * R * (2 * R)) + (3 * (2 * R * f.tiny + 2 * R * f.tiny + f.tiny * f.tiny + f.tiny) + 2 * f.tiny) ≤ 900 * (R + 1) ^ 4 ∧
    3 * (2 * R * f.tiny + 2 * R * f.tiny + f.tiny * f.tiny + f.tiny) + 2 * f.tiny ≤ 12 * (R + 1) * f.tiny ∧
    2 * (12 * R ^ 2 * (12 * (R + 1) * f.tiny) + 12 * R ^ 2 * (12 * (R + 1) * f.tiny) + 12 * (R + 1) * f.tiny * (12 * (R + 1) * f.tiny) + f.tiny) + f.tiny ≤ 600 * (R + 1) ^ 3 * f.tiny ∧
    2 * (2 * R * (2 * R)) + (2 * (2 * R * f.tiny + 2 * R * f.tiny + f.tiny * f.tiny + f.tiny) + f.tiny) ≤ 900 * (R + 1) ^ 4 ∧
    2 * (2 * R * f.tiny + 2 * R * f.tiny + f.tiny * f.tiny + f.tiny) + f.tiny ≤ 8 * (R + 1) * f.tiny ∧
    3 * (8 * R ^ 2 * (8 * (R + 1) * f.tiny) + 8 * R ^ 2 * (8 * (R + 1) * f.tiny) + 8 * (R + 1) * f.tiny * (8 * (R + 1) * f.tiny) + f.tiny) + 2 * f.tiny ≤ 400 * (R + 1) ^ 3 * f.tiny ∧
    288 * R ^ 4 + 600 * (R + 1) ^ 3 * f.tiny ≤ 900 * (R + 1) ^ 4 ∧
    192 * R ^ 4 + 400 * (R + 1) ^ 3 * f.tiny ≤ 900 * (R + 1) ^ 4 := by
  have ht := tiny_pos f
  have ht1 := tiny_le hf
  set t := f.tiny
  have R2 : 0 ≤ R ^ 2 := by positivity
  have R3 : 0 ≤ R ^ 3 := by positivity
  have R4 : 0 ≤ R ^ 4 := by positivity
  have m1 : 0 ≤ 1 / 128 - t := by linarith
  have q0 : 0 ≤ t * (1 / 128 - t) := mul_nonneg ht.le m1
  have q1 : 0 ≤ R * (1 / 128 - t) := mul_nonneg hR m1
  have q2 : 0 ≤ R ^ 2 * (1 / 128 - t) := mul_nonneg R2 m1
  have q3 : 0 ≤ R ^ 3 * (1 / 128 - t) := mul_nonneg R3 m1
  have q4 : 0 ≤ R * (t * (1 / 128 - t)) := mul_nonneg hR q0
  have q5 : 0 ≤ R ^ 2 * (t * (1 / 128 - t)) := mul_nonneg R2 q0
  have q6 : 0 ≤ R * t := by positivity
  have q7 : 0 ≤ R ^ 2 * t := by positivity
  have q8 : 0 ≤ R ^ 3 * t := by positivity
  refine ⟨?_, ?_, ?_, ?_, ?_, ?_, ?_, ?_, ?_⟩ <;> linarith

/-- The divisor and the numerators of `barycentric` are near the exact ones. -/
theorem parts_near {f : Format} (hf : Usual f) (c : Contractions) {p0 p1 p2 p : Store Number 3} {A B C P : Fin 3 → ℚ} {R : ℚ} (hA : IsVec p0 A) (hB : IsVec p1 B)
    (hC : IsVec p2 C) (hP : IsVec p P) (bA : Within R A) (bB : Within R B) (bC : Within R C) (bP : Within R P) (hg : InRange f R) :
    ∃ e1 e2 e3 d00 d01 d11 d20 d21 D y z, binary .sub f p1 p0 = some e1 ∧ binary .sub f p2 p0 = some e2 ∧ binary .sub f p p0 = some e3 ∧ dot f c.d00 e1 e1 = some d00 ∧
      dot f c.d01 e1 e2 = some d01 ∧ dot f c.d11 e2 e2 = some d11 ∧ dot f c.d20 e3 e1 = some d20 ∧ dot f c.d21 e3 e2 = some d21 ∧
      D = difference f c.divisor (d00, d11) (d01, d01) ∧ y = difference f c.y (d11, d20) (d01, d21) ∧ z = difference f c.z (d00, d21) (d01, d20) ∧
      barycentric f c p0 p1 p2 p = some (.three
        (Op.sub.eval f (.fin false 1) (f.round ((product f (y, Op.div.eval f (.fin false 1) D) c.sum.1).add (product f (z, Op.div.eval f (.fin false 1) D) c.sum.2))))
        (Op.mul.eval f y (Op.div.eval f (.fin false 1) D)) (Op.mul.eval f z (Op.div.eval f (.fin false 1) D))) ∧
      Near f 12 (288 * R ^ 4) (600 * (R + 1) ^ 3 * f.tiny) D (dotted (B - A) (B - A) * dotted (C - A) (C - A) - dotted (B - A) (C - A) * dotted (B - A) (C - A)) ∧
      Near f 12 (288 * R ^ 4) (600 * (R + 1) ^ 3 * f.tiny) y (dotted (C - A) (C - A) * dotted (P - A) (B - A) - dotted (B - A) (C - A) * dotted (P - A) (C - A)) ∧
      Near f 12 (288 * R ^ 4) (600 * (R + 1) ^ 3 * f.tiny) z (dotted (B - A) (B - A) * dotted (P - A) (C - A) - dotted (B - A) (C - A) * dotted (P - A) (B - A)) := by
  have hR : 0 ≤ R := (abs_nonneg _).trans (bA 0)
  obtain ⟨s1, s2, s3, s4, -, -, -, s8, -⟩ := small_terms hf hR
  have most : 0 ≤ 900 * (R + 1) ^ 4 := by positivity
  obtain ⟨e1, he1, n1⟩ := sub_near (f := f) hB hA bB bA (grow (l := 12) (by norm_num) s1 most hg)
  obtain ⟨e2, he2, n2⟩ := sub_near (f := f) hC hA bC bA (grow (l := 12) (by norm_num) s1 most hg)
  obtain ⟨e3, he3, n3⟩ := sub_near (f := f) hP hA bP bA (grow (l := 12) (by norm_num) s1 most hg)
  have go : ∀ {v w : Store Number 3} {X Y : Fin 3 → ℚ} (k : Store Bool 3), NearVec f 1 (2 * R) f.tiny v X → NearVec f 1 (2 * R) f.tiny w Y →
      ∃ r, dot f k v w = some r ∧ Near f 5 (12 * R ^ 2) (12 * (R + 1) * f.tiny) r (dotted X Y) := by
    intro v w X Y k hv hw
    obtain ⟨r, h, n⟩ := dot_near k hv hw (grow (l := 12) (by norm_num) s2 most hg)
    exact ⟨r, h, n.mono (by norm_num) (le_of_eq (by ring)) s3⟩
  obtain ⟨d00, g1, m1⟩ := go c.d00 n1 n1
  obtain ⟨d01, g2, m2⟩ := go c.d01 n1 n2
  obtain ⟨d11, g3, m3⟩ := go c.d11 n2 n2
  obtain ⟨d20, g4, m4⟩ := go c.d20 n3 n1
  obtain ⟨d21, g5, m5⟩ := go c.d21 n3 n2
  have fits : (1 + f.u) ^ (5 + 5 + 2) * (2 * (12 * R ^ 2 * (12 * R ^ 2)) + (2 * (12 * R ^ 2 * (12 * (R + 1) * f.tiny) + 12 * R ^ 2 * (12 * (R + 1) * f.tiny) +
      12 * (R + 1) * f.tiny * (12 * (R + 1) * f.tiny) + f.tiny) + f.tiny)) ≤ f.greatest := by
    refine grow (l := 12) (by norm_num) ?_ most hg
    have : 2 * (12 * R ^ 2 * (12 * R ^ 2)) = 288 * R ^ 4 := by ring
    linarith
  have w : 2 * (12 * R ^ 2 * (12 * R ^ 2)) ≤ 288 * R ^ 4 := le_of_eq (by ring)
  refine ⟨e1, e2, e3, d00, d01, d11, d20, d21, _, _, _, he1, he2, he3, g1, g2, g3, g4, g5, rfl, rfl, rfl, ?_, (difference_near c.divisor m1 m3 m2 m2 fits).mono (by norm_num) w s4, (difference_near c.y m3 m4 m2 m5 fits).mono (by norm_num) w s4,
    (difference_near c.z m1 m5 m2 m4 fits).mono (by norm_num) w s4⟩
  unfold barycentric
  simp only [he1, he2, he3, g1, g2, g3, g4, g5, Option.bind_eq_bind, Option.bind_some]

theorem scalar_dotted (X Y : Fin 3 → ℚ) : scalar X Y = dotted X Y := by
  unfold scalar dotted
  rw [Fin.sum_univ_three]

theorem numerators {A B C P : Fin 3 → ℚ} {U W : ℚ} (h : Above A B C P U W) :
    dotted (C - A) (C - A) * dotted (P - A) (B - A) - dotted (B - A) (C - A) * dotted (P - A) (C - A) = U * gram A B C ∧
    dotted (B - A) (B - A) * dotted (P - A) (C - A) - dotted (B - A) (C - A) * dotted (P - A) (B - A) = W * gram A B C := by
  obtain ⟨h1, h2⟩ := h
  unfold gram
  rw [scalar_dotted] at h1 h2 ⊢
  rw [scalar_dotted, scalar_dotted]
  have e1 : dotted (P - A) (B - A) = U * dotted (B - A) (B - A) + W * dotted (B - A) (C - A) := by
    rw [← sub_eq_zero, ← h1]
    simp only [dotted, weighted, Pi.sub_apply]
    ring
  have e2 : dotted (P - A) (C - A) = U * dotted (B - A) (C - A) + W * dotted (C - A) (C - A) := by
    rw [← sub_eq_zero, ← h2]
    simp only [dotted, weighted, Pi.sub_apply]
    ring
  rw [e1, e2]
  constructor <;> ring

/-- The dot products of `contains_coplanar_point` are near the exact ones. -/
theorem sides_near {f : Format} (hf : Usual f) (c : SideContractions) {p0 p1 p2 p : Store Number 3} {A B C P : Fin 3 → ℚ} {R : ℚ} (hA : IsVec p0 A) (hB : IsVec p1 B)
    (hC : IsVec p2 C) (hP : IsVec p P) (bA : Within R A) (bB : Within R B) (bC : Within R C) (bP : Within R P) (hg : InRange f R) :
    ∃ x y, containsCoplanar f c p0 p1 p2 p = some (Model.Kahan.atLeast x zero && Model.Kahan.atLeast y zero) ∧
      Near f 11 (192 * R ^ 4) (400 * (R + 1) ^ 3 * f.tiny) x (dotted (crossed (B - P) (C - P)) (crossed (C - P) (A - P))) ∧
      Near f 11 (192 * R ^ 4) (400 * (R + 1) ^ 3 * f.tiny) y (dotted (crossed (B - P) (C - P)) (crossed (A - P) (B - P))) := by
  have hR : 0 ≤ R := (abs_nonneg _).trans (bA 0)
  obtain ⟨s1, -, -, -, s5, s6, s7, -, s9⟩ := small_terms hf hR
  have most : 0 ≤ 900 * (R + 1) ^ 4 := by positivity
  obtain ⟨a, ha, n1⟩ := sub_near (f := f) hA hP bA bP (grow (l := 12) (by norm_num) s1 most hg)
  obtain ⟨b, hb, n2⟩ := sub_near (f := f) hB hP bB bP (grow (l := 12) (by norm_num) s1 most hg)
  obtain ⟨d, hd, n3⟩ := sub_near (f := f) hC hP bC bP (grow (l := 12) (by norm_num) s1 most hg)
  have go : ∀ {v w : Store Number 3} {X Y : Fin 3 → ℚ} (k : (Bool × Bool) × (Bool × Bool) × (Bool × Bool)), NearVec f 1 (2 * R) f.tiny v X → NearVec f 1 (2 * R) f.tiny w Y →
      NearVec f 4 (8 * R ^ 2) (8 * (R + 1) * f.tiny) (cross f k.1 k.2.1 k.2.2 v w) (crossed X Y) := by
    intro v w X Y k hv hw
    obtain ⟨x, y, z, h, n, n', n''⟩ := cross_near k hv hw (grow (l := 12) (by norm_num) s5 most hg)
    have w : 2 * (2 * R * (2 * R)) ≤ 8 * R ^ 2 := le_of_eq (by ring)
    exact ⟨x, y, z, h, n.mono (by norm_num) w s6, n'.mono (by norm_num) w s6, n''.mono (by norm_num) w s6⟩
  have fits : (1 + f.u) ^ (4 + 4 + 3) * (3 * (8 * R ^ 2 * (8 * R ^ 2)) + (3 * (8 * R ^ 2 * (8 * (R + 1) * f.tiny) + 8 * R ^ 2 * (8 * (R + 1) * f.tiny) +
      8 * (R + 1) * f.tiny * (8 * (R + 1) * f.tiny) + f.tiny) + 2 * f.tiny)) ≤ f.greatest := by
    refine grow (l := 12) (by norm_num) ?_ most hg
    have : 3 * (8 * R ^ 2 * (8 * R ^ 2)) = 192 * R ^ 4 := by ring
    linarith
  have w : 3 * (8 * R ^ 2 * (8 * R ^ 2)) ≤ 192 * R ^ 4 := le_of_eq (by ring)
  obtain ⟨x, g1, m1⟩ := dot_near c.uv (go c.u n2 n3) (go c.v n3 n1) fits
  obtain ⟨y, g2, m2⟩ := dot_near c.uw (go c.u n2 n3) (go c.w n1 n2) fits
  refine ⟨x, y, ?_, m1.mono (by norm_num) w s7, m2.mono (by norm_num) w s7⟩
  unfold containsCoplanar
  simp only [ha, hb, hd, g1, g2, Option.bind_eq_bind, Option.bind_some]

theorem sides {A B C : Fin 3 → ℚ} (U W : ℚ) :
    dotted (crossed (B - weighted A B C U W) (C - weighted A B C U W)) (crossed (C - weighted A B C U W) (A - weighted A B C U W)) = (1 - U - W) * U * gram A B C ∧
    dotted (crossed (B - weighted A B C U W) (C - weighted A B C U W)) (crossed (A - weighted A B C U W) (B - weighted A B C U W)) = (1 - U - W) * W * gram A B C := by
  have n : gram A B C = dotted (crossed (B - A) (C - A)) (crossed (B - A) (C - A)) := by
    unfold gram
    rw [scalar_dotted, scalar_dotted, scalar_dotted]
    simp only [dotted, crossed, Pi.sub_apply, Matrix.cons_val_zero, Matrix.cons_val_one, Matrix.cons_val]
    ring
  have scale : ∀ {X Y Z : Fin 3 → ℚ} {a b : ℚ}, (∀ i, X i = a * Z i) → (∀ i, Y i = b * Z i) → dotted X Y = a * b * dotted Z Z := by
    intro X Y Z a b h1 h2
    unfold dotted
    rw [h1, h1, h1, h2, h2, h2]
    ring
  have e1 : ∀ i, crossed (B - weighted A B C U W) (C - weighted A B C U W) i = (1 - U - W) * crossed (B - A) (C - A) i := by
    intro i
    fin_cases i <;> simp [crossed, weighted, Matrix.vecHead, Matrix.vecTail] <;> ring
  have e2 : ∀ i, crossed (C - weighted A B C U W) (A - weighted A B C U W) i = U * crossed (B - A) (C - A) i := by
    intro i
    fin_cases i <;> simp [crossed, weighted, Matrix.vecHead, Matrix.vecTail] <;> ring
  have e3 : ∀ i, crossed (A - weighted A B C U W) (B - weighted A B C U W) i = W * crossed (B - A) (C - A) i := by
    intro i
    fin_cases i <;> simp [crossed, weighted, Matrix.vecHead, Matrix.vecTail] <;> ring
  rw [n]
  exact ⟨scale e1 e2, scale e1 e3⟩

theorem mul_comm' (x y : Number) : x.mul y = y.mul x := by
  have b : ∀ s t : Bool, (s != t) = (t != s) := by decide
  cases x <;> cases y <;> simp only [Number.mul] <;> rw [b]
  rw [mul_comm]

theorem product_comm (f : Format) (x y : Number) (c : Bool) : product f (x, y) c = product f (y, x) c := by
  cases c <;> simp only [product, Op.eval, mul_comm' x y]

theorem dot_comm (f : Format) (c : Store Bool 3) (v w : Store Number 3) : dot f c v w = dot f c w v := by
  cases c with
  | three c1 c2 c3 =>
    cases v with
    | three a b d =>
      cases w with
      | three a' b' d' =>
        change some (Op.add.eval f (Op.add.eval f (product f (a, a') c1) (product f (b, b') c2)) (product f (d, d') c3)) =
          some (Op.add.eval f (Op.add.eval f (product f (a', a) c1) (product f (b', b) c2)) (product f (d', d) c3))
        rw [product_comm f a, product_comm f b, product_comm f d]

theorem vec_of_dot {f : Format} {k : Store Bool 3} {v w : Store Number 3} {r : Number} (h : dot f k v w = some r) (hr : Finite r) : (∃ X, IsVec v X) ∧ ∃ Y, IsVec w Y := by
  cases k with | three k1 k2 k3 =>
  cases v with | three a b c =>
  cases w with | three a' b' c' =>
  obtain ⟨⟨⟨A, ha⟩, A', ha'⟩, ⟨⟨B, hb⟩, B', hb'⟩, ⟨C, hc⟩, C', hc'⟩ := finite_dot h hr
  exact ⟨⟨_, vec3 ha hb hc⟩, _, vec3 ha' hb' hc'⟩

theorem vec_of_sub {f : Format} {v w d : Store Number 3} {X : Fin 3 → ℚ} (h : binary .sub f v w = some d) (hd : IsVec d X) : ∃ Y, IsVec v Y := by
  cases v with | three a b c =>
  cases w with | three a' b' c' =>
  cases h
  obtain ⟨x, y, z, e, hx, hy, hz⟩ := are3 hd
  cases e
  obtain ⟨A, ha⟩ := (finite_sub (finite_round ⟨_, hx⟩)).1
  obtain ⟨B, hb⟩ := (finite_sub (finite_round ⟨_, hy⟩)).1
  obtain ⟨C, hc⟩ := (finite_sub (finite_round ⟨_, hz⟩)).1
  exact ⟨_, vec3 ha hb hc⟩

theorem bary_inv {f : Format} {c : Contractions} {p0 p1 p2 p w : Store Number 3} (h : barycentric f c p0 p1 p2 p = some w) :
    ∃ e1 e2 e3 d00 d01 d11 d20 d21 D y z, binary .sub f p1 p0 = some e1 ∧ binary .sub f p2 p0 = some e2 ∧ binary .sub f p p0 = some e3 ∧ dot f c.d00 e1 e1 = some d00 ∧
      dot f c.d01 e1 e2 = some d01 ∧ dot f c.d11 e2 e2 = some d11 ∧ dot f c.d20 e3 e1 = some d20 ∧ dot f c.d21 e3 e2 = some d21 ∧
      D = difference f c.divisor (d00, d11) (d01, d01) ∧ y = difference f c.y (d11, d20) (d01, d21) ∧ z = difference f c.z (d00, d21) (d01, d20) ∧
      w = .three
        (Op.sub.eval f (.fin false 1) (f.round ((product f (y, Op.div.eval f (.fin false 1) D) c.sum.1).add (product f (z, Op.div.eval f (.fin false 1) D) c.sum.2))))
        (Op.mul.eval f y (Op.div.eval f (.fin false 1) D)) (Op.mul.eval f z (Op.div.eval f (.fin false 1) D)) := by
  simp only [barycentric, Option.bind_eq_bind, Option.bind_eq_some_iff, Option.some.injEq] at h
  obtain ⟨e1, h1, e2, h2, d00, h3, d01, h4, d11, h5, e3, h6, d20, h7, d21, h8, h9⟩ := h
  exact ⟨e1, e2, e3, d00, d01, d11, d20, d21, _, _, _, h1, h2, h6, h3, h4, h5, h7, h8, rfl, rfl, rfl, h9.symm⟩

theorem vec_inv {a b c : Number} {X Y Z : ℚ} (h : IsVec (.three a b c) ![X, Y, Z]) : value a = some X ∧ value b = some Y ∧ value c = some Z := by
  obtain ⟨x, y, z, e, hx, hy, hz⟩ := are3 h
  cases e
  exact ⟨hx, hy, hz⟩

/-- A weight that is finite, from the divisor and the numerator. -/
theorem weight {f : Format} {D y : Number} {d n Q Y : ℚ} (hD : value D = some d) (hy : value y = some n) (bd : |d| ≤ Q)
    (h : value (Op.mul.eval f y (Op.div.eval f (.fin false 1) D)) = some Y) : d ≠ 0 ∧ Y = rd f (n * rd f (1 / d)) ∧ |Y * d - n| ≤ divisionSlack f Q |n| := by
  have one : value (.fin false 1) = some 1 := by simp [value, signed]
  obtain ⟨-, I, hI⟩ := finite_mul (finite_round ⟨Y, h⟩)
  have d0 : d ≠ 0 := by
    rintro rfl
    obtain ⟨J, hJ⟩ := finite_round ⟨I, hI⟩
    cases D with
    | nan => simp [value] at hD
    | inf s => simp [value] at hD
    | fin s a =>
      have : a = 0 := by cases s <;> simpa [value, signed] using hD
      subst this
      simp [Number.div, value] at hJ
  have eI := value_of_round (value_div one hD d0) hI
  have eY := value_of_round (value_mul hy hI) h
  subst eI
  refine ⟨d0, eY, ?_⟩
  subst eY
  exact division d0 (err f (1 / d)) bd le_rfl (err f (n * rd f (1 / d)))

theorem slack_mono {f : Format} {Q L L' : ℚ} (hQ : 0 ≤ Q) (h : L ≤ L') : divisionSlack f Q L ≤ divisionSlack f Q L' := by
  have hu := u_pos f
  have ht := tiny_pos f
  have : 0 ≤ f.tiny * Q := by positivity
  have g0 : 0 ≤ (1 + f.u) * (1 + f.u + f.tiny * Q) - 1 := by nlinarith
  unfold divisionSlack
  have := mul_le_mul_of_nonneg_left h g0
  linarith

/-- The weight of the corner that the point is. -/
theorem unit_weight {f : Format} {D y : Number} {d Q Y : ℚ} (hD : value D = some d) (hy : value y = some d) (bd : |d| ≤ Q)
    (h : value (Op.mul.eval f y (Op.div.eval f (.fin false 1) D)) = some Y) : |Y - 1| ≤ (1 + f.u) * (1 + f.u + f.tiny * Q) - 1 + f.tiny := by
  obtain ⟨d0, e, -⟩ := weight hD hy bd h
  have hu := u_pos f
  have ht := tiny_pos f
  have dp := abs_pos.2 d0
  have w : |d * rd f (1 / d) - 1| ≤ f.u + f.tiny * Q := by
    have e : d * rd f (1 / d) - 1 = d * (rd f (1 / d) - 1 / d) := by field_simp
    rw [e, abs_mul]
    calc |d| * |rd f (1 / d) - 1 / d| ≤ |d| * (f.u * |1 / d| + f.tiny) := mul_le_mul_of_nonneg_left (err f _) dp.le
      _ = f.u + f.tiny * |d| := by rw [abs_div, abs_one]; field_simp
      _ ≤ _ := by nlinarith
  have w' : |d * rd f (1 / d)| ≤ 1 + f.u + f.tiny * Q := by
    have := abs_add_le (d * rd f (1 / d) - 1) 1
    rw [sub_add_cancel, abs_one] at this
    linarith
  have e1 := err f (d * rd f (1 / d))
  rw [← e] at e1
  have t := abs_add_le (Y - d * rd f (1 / d)) (d * rd f (1 / d) - 1)
  rw [sub_add_sub_cancel] at t
  have := mul_le_mul_of_nonneg_left w' hu.le
  linarith

theorem weight_zero {f : Format} {D y : Number} {Y : ℚ} (hy : value y = some 0) (h : value (Op.mul.eval f y (Op.div.eval f (.fin false 1) D)) = some Y) : Y = 0 := by
  obtain ⟨-, I, hI⟩ := finite_mul (finite_round ⟨Y, h⟩)
  have := value_of_round (value_mul hy hI) h
  rwa [zero_mul, rd_zero] at this

/-- A product as it is added, and as it is the weight. -/
theorem term {f : Format} (hf : Usual f) {y I : Number} {q Y P : ℚ} (c : Bool) (hq : value (y.mul I) = some q) (hY : value (Op.mul.eval f y I) = some Y)
    (hP : value (product f (y, I) c) = some P) : |P - Y| ≤ 8 / 7 * f.u * (|Y| + f.tiny) + f.tiny ∧ |P| ≤ 8 / 7 * (|Y| + f.tiny) := by
  have hu := u_pos f
  have hu8 := Verif.Proofs.FloatLength.u_le hf
  have ht := tiny_pos f
  have eY := value_of_round hq hY
  have Y0 := abs_nonneg Y
  have small : |q| ≤ 8 / 7 * (|Y| + f.tiny) := by
    have e := err f q
    rw [← eY] at e
    have t := abs_add_le (q - Y) Y
    rw [sub_add_cancel, abs_sub_comm] at t
    have := mul_le_mul_of_nonneg_right hu8 (abs_nonneg q)
    linarith
  cases c
  · have : P = Y := by
      have := hP.symm.trans hY
      exact Option.some.inj this
    subst this
    rw [sub_self, abs_zero]
    exact ⟨by positivity, by linarith⟩
  · have : P = q := Option.some.inj (hP.symm.trans hq)
    subst this
    refine ⟨?_, small⟩
    rw [eY, abs_sub_comm]
    rw [eY] at small
    refine (err f P).trans ?_
    have := mul_le_mul_of_nonneg_left small hu.le
    linarith

end Verif.Proofs.FloatWeights
