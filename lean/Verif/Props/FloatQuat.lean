import Verif.Spec.Quaternions
import Verif.Model.FloatQuat
import Verif.Proofs.FloatError
import Verif.Props.FloatLength
import Verif.Props.FloatCross
/-!
# C155: quaternions of floating-point numbers
-/
namespace Verif.Props.FloatQuat
open Quaternion Verif.Spec.Quaternions
open Verif.Spec.Parts Verif.Spec.IeeeArith Verif.Spec.FloatFormat Verif.Spec.Representable Verif.Spec.FloatSqrt Verif.Model.VectorStore Verif.Model.FloatVector
open Verif.Model.FloatProducts Verif.Proofs.VectorStore Verif.Proofs.FloatVector Verif.Proofs.FloatProducts Verif.Proofs.FloatError
open Verif.Props.FloatVector (num)
open Verif.Props.FloatCross (are3 are_three)

/-- A quaternion of finite numbers. -/
def Values (q : Model.FloatQuat.Quaternion) (p : ℍ[ℚ]) : Prop := value q.s = some p.re ∧ Are (parts q.v) [p.imI, p.imJ, p.imK]

/-- The quaternion of four rational numbers. -/
def quat (s x y z : ℚ) : ℍ[ℚ] := ⟨s, x, y, z⟩

/-- Contractions that a compiler can choose: an addition or subtraction takes one product at most. -/
def Allowed (k : Model.FloatQuat.Choices) : Prop :=
  Contraction k.dot ∧ (∀ c ∈ parts k.sum, Once c) ∧ Once k.cross1 ∧ Once k.cross2 ∧ Once k.cross3

/-- Contractions that a compiler can choose in a rotation. -/
def AllowedTurn (k : Model.FloatQuat.Turning) : Prop :=
  Once k.first1 ∧ Once k.first2 ∧ Once k.first3 ∧ Once k.second1 ∧ Once k.second2 ∧ Once k.second3

/-- The value of `x` is `X` but for `k` roundings, relative to `M`, and underflow of at most `t` before them. -/
def Error (f : Format) (k : ℕ) (M t z X : ℚ) : Prop := |z - X| ≤ ((1 + f.u) ^ k - 1) * M + (1 + f.u) ^ k * t

theorem near_error {f : Format} {k : ℕ} {M T : ℚ} {x : Number} {X : ℚ} (h : Near f k M T x X) : ∃ z, value x = some z ∧ Error f k M T z X := by
  obtain ⟨z, h1, -, -, h2⟩ := h
  exact ⟨z, h1, h2⟩

theorem dot3 (f : Format) (c : Store Bool 3) (hc : Contraction c) {x y z x' y' z' : Number} {X Y Z X' Y' Z' : ℚ} (hx : value x = some X) (hy : value y = some Y)
    (hz : value z = some Z) (hx' : value x' = some X') (hy' : value y' = some Y') (hz' : value z' = some Z')
    (hg : (1 + f.u) ^ 3 * (|X * X'| + |Y * Y'| + |Z * Z'| + 3 * f.tiny) ≤ f.greatest) :
    ∃ r, dot f c (.three x y z) (.three x' y' z') = some r ∧ Near f 3 (|X * X'| + |Y * Y'| + |Z * Z'|) (3 * f.tiny) r (X * X' + Y * Y' + Z * Z') := by
  have hu := u_pos f
  have ht := tiny_pos f
  have p : (1 + f.u) ^ 2 ≤ (1 + f.u) ^ 3 := pow_le_pow_right₀ (by linarith) (by norm_num)
  have q : (1 + f.u) ^ 2 * (3 * f.tiny) ≤ (1 + f.u) ^ 3 * (3 * f.tiny) := mul_le_mul_of_nonneg_right p (by linarith)
  have e1 : (List.zipWith (fun x y : ℚ => |x * y|) [X, Y, Z] [X', Y', Z']).sum = |X * X'| + |Y * Y'| + |Z * Z'| := by simp [add_assoc]
  have e2 : (List.zipWith (· * ·) [X, Y, Z] [X', Y', Z']).sum = X * X' + Y * Y' + Z * Z' := by simp [add_assoc]
  obtain ⟨r, w, h1, h2, h3⟩ := Props.FloatVector.C148_dot f c hc (.three x y z) (.three x' y' z') [X, Y, Z] [X', Y', Z'] (by simp [parts, hx, hy, hz])
    (by simp [parts, hx', hy', hz']) (by rw [e1]; push_cast; norm_num [-abs_mul]; linarith)
  rw [e1, e2] at h3
  push_cast at h3
  norm_num [-abs_mul] at h3
  refine ⟨r, h1, w, h2, ?_, by linarith, by linarith⟩
  have := abs_add_le (X * X' + Y * Y') (Z * Z')
  have := abs_add_le (X * X') (Y * Y')
  linarith

theorem exact_product_near (f : Format) {x y : Number} {X Y : ℚ} (hx : value x = some X) (hy : value y = some Y) (c : Bool)
    (hg : (1 + f.u) * (|X * Y| + f.tiny) ≤ f.greatest) : Near f 1 |X * Y| f.tiny (product f (x, y) c) (X * Y) := by
  have := (Near.exact f hx).product (Near.exact f hy) c (by rw [abs_mul] at hg; simpa using hg)
  rw [abs_mul]
  simpa using this

/-- The dot product of quaternions. -/
theorem dot_near (f : Format) (k : Bool) (c : Store Bool 3) (hc : Contraction c) {q1 q2 : Model.FloatQuat.Quaternion} {p1 p2 : ℍ[ℚ]} (h1 : Values q1 p1) (h2 : Values q2 p2)
    (hg : (1 + f.u) ^ 4 * ((magnitudes p1 p2).re + 5 * f.tiny) ≤ f.greatest) :
    ∃ r, Model.FloatQuat.dot f k c q1 q2 = some r ∧
      Near f 4 (magnitudes p1 p2).re (5 * f.tiny) r (p1.re * p2.re + p1.imI * p2.imI + p1.imJ * p2.imJ + p1.imK * p2.imK) := by
  have ht := tiny_pos f
  obtain ⟨s, v⟩ := q1
  obtain ⟨s', v'⟩ := q2
  obtain ⟨hs, hv⟩ := h1
  obtain ⟨hs', hv'⟩ := h2
  obtain ⟨x, y, z, rfl, hx, hy, hz⟩ := are3 hv
  obtain ⟨x', y', z', rfl, hx', hy', hz'⟩ := are3 hv'
  simp only [magnitudes] at hg ⊢
  have a0 := abs_nonneg (p1.re * p2.re)
  have a1 := abs_nonneg (p1.imI * p2.imI)
  have a2 := abs_nonneg (p1.imJ * p2.imJ)
  have a3 := abs_nonneg (p1.imK * p2.imK)
  obtain ⟨d, d1, d2⟩ := dot3 f c hc hx hy hz hx' hy' hz' (grow (by norm_num) (by linarith) (by linarith) hg)
  have hp := exact_product_near f hs hs' k (by
    have := grow (k := 1) (A := |p1.re * p2.re| + f.tiny) (by norm_num) (by linarith) (by linarith) hg
    rwa [pow_one] at this)
  refine ⟨_, by unfold Model.FloatQuat.dot; rw [d1]; rfl, ?_⟩
  have := ((hp.mono (k' := 3) (by norm_num) le_rfl le_rfl).add d2).round (by
    refine le_of_eq_of_le ?_ hg
    ring)
  refine cast ?_ this
  congr 1 <;> ring

/-- The error of the dot product of quaternions, whatever is contracted, if nothing overflows. -/
theorem C155_dot (f : Format) (k : Bool) (c : Store Bool 3) (hc : Contraction c) (q1 q2 : Model.FloatQuat.Quaternion) (p1 p2 : ℍ[ℚ]) (h1 : Values q1 p1) (h2 : Values q2 p2)
    (hg : (1 + f.u) ^ 4 * ((magnitudes p1 p2).re + 5 * f.tiny) ≤ f.greatest) :
    ∃ r z, Model.FloatQuat.dot f k c q1 q2 = some r ∧ value r = some z ∧ Error f 4 (magnitudes p1 p2).re (5 * f.tiny) z (p1 * star p2).re := by
  obtain ⟨r, r1, r2⟩ := dot_near f k c hc h1 h2 hg
  obtain ⟨z, z1, z2⟩ := near_error r2
  refine ⟨r, z, r1, z1, ?_⟩
  rw [show (p1 * star p2).re = p1.re * p2.re + p1.imI * p2.imI + p1.imJ * p2.imJ + p1.imK * p2.imK by simp]
  exact z2

example : ∃ r z, Model.FloatQuat.dot binary32 true (.three true false false) ⟨num 1, .three (num 2) (num 3) (num 4)⟩ ⟨num (1 / 3), .three (num 5) (num (-6)) (num 7)⟩ = some r ∧
    value r = some z ∧ Error binary32 4 (169 / 3) (5 * binary32.tiny) z (61 / 3) := by
  have := C155_dot binary32 true (.three true false false) (by simp [Contraction, parts]) ⟨num 1, .three (num 2) (num 3) (num 4)⟩
    ⟨num (1 / 3), .three (num 5) (num (-6)) (num 7)⟩ (quat 1 2 3 4) (quat (1 / 3) 5 (-6) 7) ⟨by decide +kernel, by decide +kernel⟩ ⟨by decide +kernel, by decide +kernel⟩ (by decide +kernel)
  obtain ⟨r, z, h1, h2, h3⟩ := this
  refine ⟨r, z, h1, h2, ?_⟩
  rwa [show (magnitudes (quat 1 2 3 4) (quat (1 / 3) 5 (-6) 7)).re = 169 / 3 by decide +kernel,
    show (quat 1 2 3 4 * star (quat (1 / 3) 5 (-6) 7)).re = 61 / 3 by decide +kernel] at h3

theorem combination_near (f : Format) (k : Bool × Bool) {a b c d : Number} {A B C D : ℚ} (ha : value a = some A) (hb : value b = some B) (hc : value c = some C)
    (hd : value d = some D) (hg : (1 + f.u) ^ 2 * (|A * B| + |C * D| + 3 * f.tiny) ≤ f.greatest) :
    Near f 2 (|A * B| + |C * D|) (3 * f.tiny) (combination f k (a, b) (c, d)) (A * B + C * D) := by
  have ht := tiny_pos f
  have a0 := abs_nonneg (A * B)
  have a1 := abs_nonneg (C * D)
  have p1 := exact_product_near f ha hb k.1 (by
    have := grow (k := 1) (A := |A * B| + f.tiny) (by norm_num) (by linarith) (by linarith) hg
    rwa [pow_one] at this)
  have p2 := exact_product_near f hc hd k.2 (by
    have := grow (k := 1) (A := |C * D| + f.tiny) (by norm_num) (by linarith) (by linarith) hg
    rwa [pow_one] at this)
  have := (p1.add p2).round (by refine le_of_eq_of_le ?_ hg; ring)
  refine cast ?_ this
  congr 1; ring

theorem difference_near (f : Format) (k : Bool × Bool) {a b c d : Number} {A B C D : ℚ} (ha : value a = some A) (hb : value b = some B) (hc : value c = some C)
    (hd : value d = some D) (hg : (1 + f.u) ^ 2 * (|A * B| + |C * D| + 3 * f.tiny) ≤ f.greatest) :
    Near f 2 (|A * B| + |C * D|) (3 * f.tiny) (difference f k (a, b) (c, d)) (A * B - C * D) := by
  rw [difference_combination]
  have := combination_near f k ha hb (value_negate hc) hd (by rw [neg_mul, abs_neg]; exact hg)
  rwa [neg_mul, abs_neg, ← sub_eq_add_neg] at this

/-- Each component of the product of two quaternions has an error of at most four roundings, relative to the sum of the magnitudes of its four products, whatever is contracted, if
nothing overflows. -/
theorem C155_product (f : Format) (k : Model.FloatQuat.Choices) (hk : Allowed k) (q1 q2 : Model.FloatQuat.Quaternion) (p1 p2 : ℍ[ℚ]) (h1 : Values q1 p1) (h2 : Values q2 p2)
    (hg : ∀ m ∈ [(magnitudes p1 p2).re, (magnitudes p1 p2).imI, (magnitudes p1 p2).imJ, (magnitudes p1 p2).imK], (1 + f.u) ^ 4 * (m + 7 * f.tiny) ≤ f.greatest) :
    ∃ q p, Model.FloatQuat.multiply f k q1 q2 = some q ∧ Values q p ∧
      Error f 4 (magnitudes p1 p2).re (7 * f.tiny) p.re (p1 * p2).re ∧ Error f 3 (magnitudes p1 p2).imI (7 * f.tiny) p.imI (p1 * p2).imI ∧
      Error f 3 (magnitudes p1 p2).imJ (7 * f.tiny) p.imJ (p1 * p2).imJ ∧ Error f 3 (magnitudes p1 p2).imK (7 * f.tiny) p.imK (p1 * p2).imK := by
  have ht := tiny_pos f
  obtain ⟨k0, kd, ks, c1, c2, c3⟩ := k
  obtain ⟨hd, hks, hc1, hc2, hc3⟩ := hk
  obtain ⟨s, v⟩ := q1
  obtain ⟨s', v'⟩ := q2
  obtain ⟨hs, hv⟩ := h1
  obtain ⟨hs', hv'⟩ := h2
  obtain ⟨x, y, z, rfl, hx, hy, hz⟩ := are3 hv
  obtain ⟨x', y', z', rfl, hx', hy', hz'⟩ := are3 hv'
  cases ks with
  | three e1 e2 e3 =>
  simp only [List.mem_cons, List.not_mem_nil, or_false, forall_eq_or_imp, forall_eq, magnitudes] at hg ⊢
  obtain ⟨g0, g1, g2, g3⟩ := hg
  have nn : ∀ a b c d : ℚ, 0 ≤ |a| ∧ 0 ≤ |b| ∧ 0 ≤ |c| ∧ 0 ≤ |d| := fun a b c d => ⟨abs_nonneg a, abs_nonneg b, abs_nonneg c, abs_nonneg d⟩
  obtain ⟨a0, a1, a2, a3⟩ := nn (p1.re * p2.re) (p1.imI * p2.imI) (p1.imJ * p2.imJ) (p1.imK * p2.imK)
  -- the scalar part
  obtain ⟨d, d1, d2⟩ := dot3 f kd hd hx hy hz hx' hy' hz' (grow (by norm_num) (by linarith) (by linarith) g0)
  have hp := exact_product_near f hs hs' k0 (by
    have := grow (k := 1) (A := |p1.re * p2.re| + f.tiny) (by norm_num) (by linarith) (by linarith) g0
    rwa [pow_one] at this)
  have r0 := ((hp.mono (k' := 3) (by norm_num) le_rfl le_rfl).sub d2).round (grow le_rfl (by linarith) (by linarith) g0)
  obtain ⟨w0, u0, u0'⟩ := near_error (r0.mono (T' := 7 * f.tiny) (M' := |p1.re * p2.re| + |p1.imI * p2.imI| + |p1.imJ * p2.imJ| + |p1.imK * p2.imK|) le_rfl (by linarith) (by linarith))
  -- a component of the vector part
  have comp : ∀ (e c : Bool × Bool) {x x' a b c' d : Number} {X X' A B C D : ℚ}, value x = some X → value x' = some X' → value a = some A → value b = some B →
      value c' = some C → value d = some D → ∀ {M : ℚ}, |p1.re * X'| + |X * p2.re| + |A * B| + |C * D| = M → (1 + f.u) ^ 4 * (M + 7 * f.tiny) ≤ f.greatest →
      ∃ w, value (Op.add.eval f (combination f e (x', s) (x, s')) (difference f c (a, b) (c', d))) = some w ∧
        Error f 3 M (7 * f.tiny) w (p1.re * X' + X * p2.re + (A * B - C * D)) := by
    intro e c x x' a b c' d X X' A B C D hx hx' ha hb hc hd M hM hg
    subst hM
    obtain ⟨b0, b1, b2, b3⟩ := nn (p1.re * X') (X * p2.re) (A * B) (C * D)
    have n1 := combination_near f e hx' hs hx hs' (grow (by norm_num) (by rw [mul_comm X']; linarith) (by linarith) hg)
    have n2 := difference_near f c ha hb hc hd (grow (by norm_num) (by linarith) (by linarith) hg)
    rw [mul_comm X'] at n1
    have n3 := (n1.add n2).round (grow (by norm_num) (by linarith) (by linarith) hg)
    exact near_error (n3.mono le_rfl (by linarith) (by linarith))
  obtain ⟨w1, u1, u1'⟩ := comp e1 c1 hx hx' hy hz' hz hy' rfl g1
  obtain ⟨w2, u2, u2'⟩ := comp e2 c2 hy hy' hz hx' hx hz' (M := |p1.re * p2.imJ| + |p1.imI * p2.imK| + |p1.imJ * p2.re| + |p1.imK * p2.imI|) (by ring) g2
  obtain ⟨w3, u3, u3'⟩ := comp e3 c3 hz hz' hx hy' hy hx' (M := |p1.re * p2.imK| + |p1.imI * p2.imJ| + |p1.imJ * p2.imI| + |p1.imK * p2.re|) (by ring) g3
  refine ⟨_, ⟨w0, w1, w2, w3⟩, by unfold Model.FloatQuat.multiply; rw [d1]; rfl, ⟨u0, are_three u1 u2 u3⟩, ?_, ?_, ?_, ?_⟩
  · rw [show (p1 * p2).re = p1.re * p2.re - (p1.imI * p2.imI + p1.imJ * p2.imJ + p1.imK * p2.imK) by rw [re_mul]; ring]; exact u0'
  · rw [show (p1 * p2).imI = p1.re * p2.imI + p1.imI * p2.re + (p1.imJ * p2.imK - p1.imK * p2.imJ) by rw [imI_mul]; ring]; exact u1'
  · rw [show (p1 * p2).imJ = p1.re * p2.imJ + p1.imJ * p2.re + (p1.imK * p2.imI - p1.imI * p2.imK) by rw [imJ_mul]; ring]; exact u2'
  · rw [show (p1 * p2).imK = p1.re * p2.imK + p1.imK * p2.re + (p1.imI * p2.imJ - p1.imJ * p2.imI) by rw [imK_mul]; ring]; exact u3'

example : ∃ q p, Model.FloatQuat.multiply binary32 ⟨true, .three false true false, .three (true, false) (false, true) (false, false), (true, false), (false, true), (false, false)⟩
    ⟨num 1, .three (num 2) (num 3) (num 4)⟩ ⟨num (1 / 3), .three (num 5) (num (-6)) (num 7)⟩ = some q ∧ Values q p ∧ Error binary32 4 (169 / 3) (7 * binary32.tiny) p.re (-59 / 3) := by
  obtain ⟨q, p, h1, h2, h3, -⟩ := C155_product binary32
    ⟨true, .three false true false, .three (true, false) (false, true) (false, false), (true, false), (false, true), (false, false)⟩
    ⟨by simp [Contraction, parts], by simp [parts, Once], by simp [Once], by simp [Once], by simp [Once]⟩
    ⟨num 1, .three (num 2) (num 3) (num 4)⟩ ⟨num (1 / 3), .three (num 5) (num (-6)) (num 7)⟩ (quat 1 2 3 4) (quat (1 / 3) 5 (-6) 7) ⟨by decide +kernel, by decide +kernel⟩
    ⟨by decide +kernel, by decide +kernel⟩ (by decide +kernel)
  refine ⟨q, p, h1, h2, ?_⟩
  rwa [show (magnitudes (quat 1 2 3 4) (quat (1 / 3) 5 (-6) 7)).re = 169 / 3 by decide +kernel,
    show (quat 1 2 3 4 * quat (1 / 3) 5 (-6) 7).re = -59 / 3 by decide +kernel] at h3

/-- The conjugate is exact. -/
theorem C155_conjugate (q : Model.FloatQuat.Quaternion) (p : ℍ[ℚ]) (h : Values q p) : ∃ r, Model.FloatQuat.conjugate q = some r ∧ Values r (star p) := by
  obtain ⟨s, v⟩ := q
  obtain ⟨hs, hv⟩ := h
  obtain ⟨x, y, z, rfl, hx, hy, hz⟩ := are3 hv
  refine ⟨_, rfl, ?_, ?_⟩
  · simpa using hs
  · simp only [imI_star, imJ_star, imK_star]
    exact are_three (value_negate hx) (value_negate hy) (value_negate hz)

example : ∃ r, Model.FloatQuat.conjugate ⟨num 1, .three (num 2) (num (-3)) (num 4)⟩ = some r ∧ Values r (quat 1 (-2) 3 (-4)) := by
  have := C155_conjugate ⟨num 1, .three (num 2) (num (-3)) (num 4)⟩ (quat 1 2 (-3) 4) ⟨by decide +kernel, by decide +kernel⟩
  rwa [show star (quat 1 2 (-3) 4) = quat 1 (-2) 3 (-4) by ext <;> decide +kernel] at this

theorem turn_component (f : Format) (kk : Bool × Bool) (k1 : Bool) {r s y z tx ty tz : Number} {R S Y Z M1 M2 M3 X1 X2 X3 T : ℚ} (hr : value r = some R)
    (hs : value s = some S) (hy : value y = some Y) (hz : value z = some Z) (n1 : Near f 3 M1 (7 * f.tiny) tx X1) (n2 : Near f 3 M2 (7 * f.tiny) ty X2)
    (n3 : Near f 3 M3 (7 * f.tiny) tz X3) (hT : 7 * (|S| + |Y| + |Z| + 1) * f.tiny ≤ T)
    (hg : (1 + f.u) ^ 6 * (|R| + M1 * |S| + (|Y| * M3 + |Z| * M2) + T) ≤ f.greatest) :
    Near f 6 (|R| + M1 * |S| + (|Y| * M3 + |Z| * M2)) T
      (Op.add.eval f (Op.add.eval f r (product f (tx, s) k1)) (difference f kk (y, tz) (z, ty))) (R + X1 * S + (Y * X3 - Z * X2)) := by
  have ht := tiny_pos f
  have m1 : 0 ≤ M1 := by obtain ⟨_, _, h, _⟩ := n1; exact (abs_nonneg _).trans h
  have m2 : 0 ≤ M2 := by obtain ⟨_, _, h, _⟩ := n2; exact (abs_nonneg _).trans h
  have m3 : 0 ≤ M3 := by obtain ⟨_, _, h, _⟩ := n3; exact (abs_nonneg _).trans h
  have q0 := abs_nonneg R
  have q1 : 0 ≤ M1 * |S| := by positivity
  have q2 : 0 ≤ |Y| * M3 := by positivity
  have q3 : 0 ≤ |Z| * M2 := by positivity
  have t1 : 0 ≤ |S| * (7 * f.tiny) := by positivity
  have t2 : 0 ≤ |Y| * (7 * f.tiny) := by positivity
  have t3 : 0 ≤ |Z| * (7 * f.tiny) := by positivity
  have b0 : 0 ≤ |R| + M1 * |S| + (|Y| * M3 + |Z| * M2) + T := by linarith
  have e1 := n1.product (Near.exact f hs) k1 (grow (by norm_num) (by linarith) b0 hg)
  have e2 := (Near.exact f hy).product n3 kk.1 (grow (by norm_num) (by linarith) b0 hg)
  have e3 := (Near.exact f hz).product n2 kk.2 (grow (by norm_num) (by linarith) b0 hg)
  have e4 := (e2.sub e3).round (grow (by norm_num) (by linarith) b0 hg)
  have e5 := (((Near.exact f hr).mono (k' := 4) (by norm_num) le_rfl le_rfl).add e1).round (grow (by norm_num) (by linarith) b0 hg)
  have e6 := (e5.add e4).round (grow (by norm_num) (by linarith) b0 hg)
  exact e6.mono le_rfl le_rfl (by linarith)

theorem twice_cross (f : Format) (k : Bool × Bool) {a b c d : Number} {A B C D M : ℚ} (ha : value a = some A) (hb : value b = some B) (hc : value c = some C)
    (hd : value d = some D) (hM : |A| * |B| + |C| * |D| = M) (hg : (1 + f.u) ^ 6 * (2 * M + 7 * f.tiny) ≤ f.greatest) :
    Near f 3 (2 * M) (7 * f.tiny) (Op.mul.eval f (difference f k (a, b) (c, d)) (.fin false 2)) (2 * (A * B - C * D)) := by
  have ht := tiny_pos f
  have M0 : 0 ≤ M := by rw [← hM]; positivity
  rw [← abs_mul, ← abs_mul] at hM
  have n := difference_near f k ha hb hc hd (grow (by norm_num) (by rw [hM]; linarith) (by linarith) hg)
  rw [hM] at n
  have two : Near f 0 2 0 (.fin false 2) 2 := by
    have := Near.exact f (x := .fin false 2) (X := 2) (by simp [value, signed])
    rwa [abs_two] at this
  have m := (n.mul two).round (grow (by norm_num) (by linarith) (by linarith) hg)
  rw [mul_comm (A * B - C * D)] at m
  exact m.mono le_rfl (by linarith) (by linarith)

/-- Each component of a vector that a quaternion rotates has an error of at most six roundings, relative to the sum of the magnitudes of the products that make it, whatever is
contracted, if nothing overflows. -/
theorem C155_rotate (f : Format) (k : Model.FloatQuat.Turning) (hk : AllowedTurn k) (q : Model.FloatQuat.Quaternion) (p : ℍ[ℚ]) (hq : Values q p) (v : Store Number 3)
    (r : Fin 3 → ℚ) (hv : Are (parts v) [r 0, r 1, r 2])
    (hg : ∀ i, (1 + f.u) ^ 6 * (turnedMagnitudes p r i + 7 * (|p.re| + |p.imI| + |p.imJ| + |p.imK| + 1) * f.tiny) ≤ f.greatest)
    (hg' : ∀ i, (1 + f.u) ^ 6 * (2 * crossMagnitudes (vec p) r i + 7 * (|p.re| + |p.imI| + |p.imJ| + |p.imK| + 1) * f.tiny) ≤ f.greatest) :
    ∃ (out : _) (z : Fin 3 → ℚ), Model.FloatQuat.rotateVector f k q v = some out ∧ Are (parts out) [z 0, z 1, z 2] ∧
      ∀ i, Error f 6 (turnedMagnitudes p r i) (7 * (|p.re| + |p.imI| + |p.imJ| + |p.imK| + 1) * f.tiny) (z i) (turned p r i) := by
  have ht := tiny_pos f
  obtain ⟨f1, f2, f3, s1, s2, s3, ks⟩ := k
  obtain ⟨s, w⟩ := q
  obtain ⟨hs, hw⟩ := hq
  obtain ⟨x, y, z, rfl, hx, hy, hz⟩ := are3 hw
  obtain ⟨a, b, c, rfl, ha, hb, hc⟩ := are3 hv
  cases ks with
  | three k1 k2 k3 =>
  have as := abs_nonneg p.re
  have ax := abs_nonneg p.imI
  have ay := abs_nonneg p.imJ
  have az := abs_nonneg p.imK
  have sx : 0 ≤ 7 * |p.imI| * f.tiny := by positivity
  have sy : 0 ≤ 7 * |p.imJ| * f.tiny := by positivity
  have sz : 0 ≤ 7 * |p.imK| * f.tiny := by positivity
  have ss : 0 ≤ 7 * |p.re| * f.tiny := by positivity
  obtain ⟨T, hT⟩ : ∃ T, T = 7 * (|p.re| + |p.imI| + |p.imJ| + |p.imK| + 1) * f.tiny := ⟨_, rfl⟩
  rw [← hT] at hg hg' ⊢
  have g0 := hg 0
  have g1 := hg 1
  have g2 := hg 2
  have c0 := hg' 0
  have c1 := hg' 1
  have c2 := hg' 2
  simp only [turnedMagnitudes, crossMagnitudes, vec, Pi.add_apply, Pi.smul_apply, smul_eq_mul, Matrix.cons_val_zero, Matrix.cons_val_one, Matrix.cons_val] at g0 g1 g2 c0 c1 c2
  have p1 := mul_nonneg ay (abs_nonneg (r 2))
  have p2 := mul_nonneg az (abs_nonneg (r 1))
  have p3 := mul_nonneg az (abs_nonneg (r 0))
  have p4 := mul_nonneg ax (abs_nonneg (r 2))
  have p5 := mul_nonneg ax (abs_nonneg (r 1))
  have p6 := mul_nonneg ay (abs_nonneg (r 0))
  obtain ⟨m1, hm1⟩ : ∃ m, |p.imJ| * |r 2| + |p.imK| * |r 1| = m := ⟨_, rfl⟩
  obtain ⟨m2, hm2⟩ : ∃ m, |p.imK| * |r 0| + |p.imI| * |r 2| = m := ⟨_, rfl⟩
  obtain ⟨m3, hm3⟩ : ∃ m, |p.imI| * |r 1| + |p.imJ| * |r 0| = m := ⟨_, rfl⟩
  have m10 : |m1| = m1 := abs_of_nonneg (by linarith)
  have m20 : |m2| = m2 := abs_of_nonneg (by linarith)
  have m30 : |m3| = m3 := abs_of_nonneg (by linarith)
  rw [hm1, hm2, hm3, m20, m30] at g0
  rw [hm1, hm2, hm3, m10, m30] at g1
  rw [hm1, hm2, hm3, m10, m20] at g2
  rw [hm1] at c0
  rw [hm2] at c1
  rw [hm3] at c2
  have n1 := twice_cross f f1 hy hc hz hb hm1 (grow le_rfl (by linarith) (by linarith) c0)
  have n2 := twice_cross f f2 hz ha hx hc hm2 (grow le_rfl (by linarith) (by linarith) c1)
  have n3 := twice_cross f f3 hx hb hy ha hm3 (grow le_rfl (by linarith) (by linarith) c2)
  obtain ⟨z1, u1, v1⟩ := near_error (turn_component f s1 k1 ha hs hy hz n1 n2 n3 (T := T) (by linarith) (le_of_eq_of_le (by ring) g0))
  obtain ⟨z2, u2, v2⟩ := near_error (turn_component f s2 k2 hb hs hz hx n2 n3 n1 (T := T) (by linarith) (le_of_eq_of_le (by ring) g1))
  obtain ⟨z3, u3, v3⟩ := near_error (turn_component f s3 k3 hc hs hx hy n3 n1 n2 (T := T) (by linarith) (le_of_eq_of_le (by ring) g2))
  have t0 : turned p r 0 = r 0 + 2 * (p.imJ * r 2 - p.imK * r 1) * p.re + (p.imJ * (2 * (p.imI * r 1 - p.imJ * r 0)) - p.imK * (2 * (p.imK * r 0 - p.imI * r 2))) := by
    simp only [turned, cross_apply, vec, Pi.add_apply, Pi.smul_apply, smul_eq_mul, Matrix.cons_val_zero, Matrix.cons_val_one, Matrix.cons_val]
    ring
  have t1 : turned p r 1 = r 1 + 2 * (p.imK * r 0 - p.imI * r 2) * p.re + (p.imK * (2 * (p.imJ * r 2 - p.imK * r 1)) - p.imI * (2 * (p.imI * r 1 - p.imJ * r 0))) := by
    simp only [turned, cross_apply, vec, Pi.add_apply, Pi.smul_apply, smul_eq_mul, Matrix.cons_val_zero, Matrix.cons_val_one, Matrix.cons_val]
    ring
  have t2 : turned p r 2 = r 2 + 2 * (p.imI * r 1 - p.imJ * r 0) * p.re + (p.imI * (2 * (p.imK * r 0 - p.imI * r 2)) - p.imJ * (2 * (p.imJ * r 2 - p.imK * r 1))) := by
    simp only [turned, cross_apply, vec, Pi.add_apply, Pi.smul_apply, smul_eq_mul, Matrix.cons_val_zero, Matrix.cons_val_one, Matrix.cons_val]
    ring
  have e0 : turnedMagnitudes p r 0 = |r 0| + 2 * m1 * |p.re| + (|p.imJ| * (2 * m3) + |p.imK| * (2 * m2)) := by
    simp only [turnedMagnitudes, crossMagnitudes, vec, Pi.add_apply, Pi.smul_apply, smul_eq_mul, Matrix.cons_val_zero, Matrix.cons_val_one, Matrix.cons_val, hm1, hm2, hm3, m10, m20, m30]
    ring
  have e1 : turnedMagnitudes p r 1 = |r 1| + 2 * m2 * |p.re| + (|p.imK| * (2 * m1) + |p.imI| * (2 * m3)) := by
    simp only [turnedMagnitudes, crossMagnitudes, vec, Pi.add_apply, Pi.smul_apply, smul_eq_mul, Matrix.cons_val_zero, Matrix.cons_val_one, Matrix.cons_val, hm1, hm2, hm3, m10, m20, m30]
    ring
  have e2 : turnedMagnitudes p r 2 = |r 2| + 2 * m3 * |p.re| + (|p.imI| * (2 * m2) + |p.imJ| * (2 * m1)) := by
    simp only [turnedMagnitudes, crossMagnitudes, vec, Pi.add_apply, Pi.smul_apply, smul_eq_mul, Matrix.cons_val_zero, Matrix.cons_val_one, Matrix.cons_val, hm1, hm2, hm3, m10, m20, m30]
    ring
  refine ⟨_, ![z1, z2, z3], rfl, are_three u1 u2 u3, fun i => ?_⟩
  match i with
  | 0 => rw [t0, e0]; exact v1
  | 1 => rw [t1, e1]; exact v2
  | 2 => rw [t2, e2]; exact v3

theorem quat_parts (s x y z : ℚ) : (quat s x y z).re = s ∧ (quat s x y z).imI = x ∧ (quat s x y z).imJ = y ∧ (quat s x y z).imK = z := ⟨rfl, rfl, rfl, rfl⟩

/-- What is computed is a rotation: for quaternions of length one, the conjugation of the vector by the quaternion. -/
theorem C155_turned (p : ℍ[ℚ]) (h : p.re ^ 2 + p.imI ^ 2 + p.imJ ^ 2 + p.imK ^ 2 = 1) (r : Fin 3 → ℚ) :
    vec (p * quat 0 (r 0) (r 1) (r 2) * star p) = turned p r ∧ (p * quat 0 (r 0) (r 1) (r 2) * star p).re = 0 := by
  obtain ⟨q0, q1, q2, q3⟩ := quat_parts 0 (r 0) (r 1) (r 2)
  constructor
  · funext i
    match i with
    | 0 =>
      simp only [turned, cross_apply, vec, Pi.add_apply, Pi.smul_apply, smul_eq_mul, Matrix.cons_val_zero, Matrix.cons_val_one, Matrix.cons_val, re_mul, imI_mul, imJ_mul, imK_mul,
        re_star, imI_star, imJ_star, imK_star, q0, q1, q2, q3]
      linear_combination (r 0) * h
    | 1 =>
      simp only [turned, cross_apply, vec, Pi.add_apply, Pi.smul_apply, smul_eq_mul, Matrix.cons_val_zero, Matrix.cons_val_one, Matrix.cons_val, re_mul, imI_mul, imJ_mul, imK_mul,
        re_star, imI_star, imJ_star, imK_star, q0, q1, q2, q3]
      linear_combination (r 1) * h
    | 2 =>
      simp only [turned, cross_apply, vec, Pi.add_apply, Pi.smul_apply, smul_eq_mul, Matrix.cons_val_zero, Matrix.cons_val_one, Matrix.cons_val, re_mul, imI_mul, imJ_mul, imK_mul,
        re_star, imI_star, imJ_star, imK_star, q0, q1, q2, q3]
      linear_combination (r 2) * h
  · simp only [re_mul, imI_mul, imJ_mul, imK_mul, re_star, imI_star, imJ_star, imK_star, q0, q1, q2, q3]
    ring

example : ∃ (out : _) (z : Fin 3 → ℚ), Model.FloatQuat.rotateVector binary64 ⟨(true, false), (false, true), (false, false), (true, false), (false, true), (false, false), .three true false true⟩
    ⟨num (3 / 5), .three (num 0) (num 0) (num (4 / 5))⟩ (.three (num 1) (num 0) (num 7)) = some out ∧ Are (parts out) [z 0, z 1, z 2] ∧
    Error binary64 6 (57 / 25) (7 * (3 / 5 + 0 + 0 + 4 / 5 + 1) * binary64.tiny) (z 0) (-7 / 25) := by
  obtain ⟨out, z, h1, h2, h3⟩ := C155_rotate binary64 ⟨(true, false), (false, true), (false, false), (true, false), (false, true), (false, false), .three true false true⟩
    (by simp [AllowedTurn, Once]) ⟨num (3 / 5), .three (num 0) (num 0) (num (4 / 5))⟩ (quat (3 / 5) 0 0 (4 / 5)) ⟨by decide +kernel, by decide +kernel⟩
    (.three (num 1) (num 0) (num 7)) ![1, 0, 7] (by decide +kernel) (by decide +kernel) (by decide +kernel)
  have h4 := h3 0
  rw [show turnedMagnitudes (quat (3 / 5) 0 0 (4 / 5)) ![1, 0, 7] 0 = 57 / 25 by decide +kernel,
    show turned (quat (3 / 5) 0 0 (4 / 5)) ![1, 0, 7] 0 = -7 / 25 by decide +kernel,
    show |(quat (3 / 5) 0 0 (4 / 5)).re| + |(quat (3 / 5) 0 0 (4 / 5)).imI| + |(quat (3 / 5) 0 0 (4 / 5)).imJ| + |(quat (3 / 5) 0 0 (4 / 5)).imK| = 3 / 5 + 0 + 0 + 4 / 5 by
      decide +kernel] at h4
  exact ⟨out, z, h1, h2, h4⟩

/-- The squared length. -/
def norm (p : ℍ[ℚ]) : ℚ := p.re ^ 2 + p.imI ^ 2 + p.imJ ^ 2 + p.imK ^ 2

theorem norm_list (p : ℍ[ℚ]) : Proofs.FloatLength.sqSum [p.re, p.imI, p.imJ, p.imK] = norm p := by
  simp [Proofs.FloatLength.sqSum, norm]; ring

theorem dot_rel (f : Format) (hf : Usual f) (k : Bool) (c : Store Bool 3) (hc : Contraction c) {q : Model.FloatQuat.Quaternion} {p : ℍ[ℚ]} (hq : Values q p)
    (hlo : 2 ^ f.emin ≤ f.u * norm p) (hg : (1 + f.u) ^ 5 * norm p ≤ f.greatest) :
    ∃ r S, Model.FloatQuat.dot f k c q q = some r ∧ value r = some S ∧ |S - norm p| ≤ ((1 + f.u) ^ 5 - 1) * norm p := by
  have hu := u_pos f
  have hu8 := Proofs.FloatLength.u_le hf
  have e : (magnitudes p p).re = norm p := by
    simp only [magnitudes, norm, abs_mul_self]
    ring
  have t : 5 * f.tiny ≤ f.u * norm p := by
    rw [Proofs.FloatLength.tiny_eq]
    have h1 : f.u * 2 ^ f.emin ≤ f.u * (f.u * norm p) := mul_le_mul_of_nonneg_left hlo hu.le
    have n0 : 0 ≤ norm p := by unfold norm; positivity
    have h2 : f.u * (f.u * norm p) ≤ f.u * (1 / 8 * norm p) := mul_le_mul_of_nonneg_left (mul_le_mul_of_nonneg_right hu8 n0) hu.le
    have h3 : 0 ≤ f.u * norm p := by positivity
    linarith
  have g : (1 + f.u) ^ 4 * (5 * f.tiny) ≤ (1 + f.u) ^ 4 * (f.u * norm p) := mul_le_mul_of_nonneg_left t (by positivity)
  have e5 : (1 + f.u) ^ 5 * norm p = (1 + f.u) ^ 4 * norm p + (1 + f.u) ^ 4 * (f.u * norm p) := by ring
  obtain ⟨r, r1, S, r2, -, -, r3⟩ := dot_near f k c hc hq hq (by rw [e]; linarith)
  rw [e, show p.re * p.re + p.imI * p.imI + p.imJ * p.imJ + p.imK * p.imK = norm p by unfold norm; ring] at r3
  exact ⟨r, S, r1, r2, by linarith⟩

/-- Normalizing a quaternion multiplies its components by one number, rounding each product once, and the square of that number is the reciprocal of the squared length but for a
relative error of a few units of round-off, if the squared length is not too large or small.
Missing: very long and short quaternions (`C155_normalize_violated`). -/
theorem C155_normalize_partial (f : Format) (hf : Usual f) (k : Bool) (c : Store Bool 3) (hc : Contraction c) (q : Model.FloatQuat.Quaternion) (p : ℍ[ℚ]) (hq : Values q p)
    (hk : (1 + f.u) ^ 5 ≤ 3 / 2) (hlo : 2 ^ f.emin ≤ f.u * norm p) (hg : (1 + f.u) ^ 5 * norm p ≤ f.greatest) :
    ∃ out w, Model.FloatQuat.normalize f k c q = some out ∧ 0 < w ∧
      Values out (quat (Spec.SmallFloat.rounded f.p f.emin (p.re * w)) (Spec.SmallFloat.rounded f.p f.emin (p.imI * w)) (Spec.SmallFloat.rounded f.p f.emin (p.imJ * w))
        (Spec.SmallFloat.rounded f.p f.emin (p.imK * w))) ∧
      (1 - f.u) ^ 2 / (1 + f.u) ^ 7 ≤ w ^ 2 * norm p ∧ w ^ 2 * norm p ≤ (1 + f.u) ^ 2 / ((1 - f.u) ^ 2 * (2 - (1 + f.u) ^ 5)) := by
  have hu := u_pos f
  have hu8 := Proofs.FloatLength.u_le hf
  obtain ⟨r, S, r1, r2, r3⟩ := dot_rel f hf k c hc hq hlo hg
  have hQ := Props.FloatLength.pos_of_lo hlo
  have S0 := Proofs.FloatLength.pos_of_rel hQ (by linarith) r3
  obtain ⟨w, w0, w1, w2, w3⟩ := Proofs.FloatLength.factor hf hk hlo hg r3
  have w4 : w ^ 2 * norm p ≤ 4 := by
    refine w3.trans ?_
    have d0 : 0 < (1 - f.u) ^ 2 * (2 - (1 + f.u) ^ 5) := mul_pos (pow_pos (by linarith) 2) (by linarith)
    rw [div_le_iff₀ d0]
    have b1 : (1 + f.u) ^ 2 ≤ (9 / 8) ^ 2 := pow_le_pow_left₀ (by linarith) (by linarith) 2
    have b2 : (7 / 8 : ℚ) ^ 2 ≤ (1 - f.u) ^ 2 := pow_le_pow_left₀ (by norm_num) (by linarith) 2
    have b3 : (7 / 8 : ℚ) ^ 2 * (1 / 2) ≤ (1 - f.u) ^ 2 * (2 - (1 + f.u) ^ 5) := mul_le_mul b2 (by linarith) (by norm_num) (by positivity)
    norm_num at b1 b3
    linarith
  obtain ⟨s, v⟩ := q
  obtain ⟨hs, hv⟩ := hq
  obtain ⟨x, y, z, rfl, hx, hy, hz⟩ := are3 hv
  obtain ⟨out, o1, o2⟩ := Proofs.FloatLength.scaled hf (.four s x y z) [p.re, p.imI, p.imJ, p.imK] (by simp only [parts, List.map_cons, List.map_nil, hx, hy, hz]; rw [← hs]) w1
    (by rw [norm_list]; exact w4)
  obtain rfl := Option.some.inj (o1.symm.trans (show _ = some (Store.four _ _ _ _) from rfl))
  simp only [parts, List.map_cons, List.map_nil, List.cons.injEq, and_true] at o2
  refine ⟨⟨_, .three _ _ _⟩, w, ?_, w0, ⟨o2.1, are_three o2.2.1 o2.2.2.1 o2.2.2.2⟩, w2, w3⟩
  unfold Model.FloatQuat.normalize
  rw [r1]
  simp only [Option.bind_eq_bind, Option.bind_some, Proofs.FloatLength.sqrt_value f r2 S0]
  rfl

example : (Model.FloatQuat.normalize binary32 true (.three true false false) ⟨num 2, .three (num (-4)) (num 5) (num 6)⟩).map (fun q => (q.s, parts q.v)) =
    some (num (Spec.SmallFloat.rounded 24 (-126) (2 * Spec.SmallFloat.rounded 24 (-126) (1 / 9))), [num (Spec.SmallFloat.rounded 24 (-126) (-4 * Spec.SmallFloat.rounded 24 (-126) (1 / 9))),
      num (Spec.SmallFloat.rounded 24 (-126) (5 * Spec.SmallFloat.rounded 24 (-126) (1 / 9))), num (Spec.SmallFloat.rounded 24 (-126) (6 * Spec.SmallFloat.rounded 24 (-126) (1 / 9)))]) := by
  decide +kernel

/-- **Violated**: short quaternions of floats normalize to infinities and NaN, long ones to zero. -/
theorem C155_normalize_violated :
    (Model.FloatQuat.normalize binary32 false (.three false false false) ⟨num (2 ^ (-76 : ℤ)), .three (num 0) (num 0) (num 0)⟩).map (fun q => (q.s, parts q.v)) =
      some (.inf false, [.nan, .nan, .nan]) ∧
    (Model.FloatQuat.normalize binary32 false (.three false false false) ⟨num (2 ^ 64), .three (num 0) (num 0) (num 0)⟩).map (fun q => (q.s, parts q.v)) =
      some (num 0, [num 0, num 0, num 0]) := by decide +kernel

/-- What has been normalized is recognized as normalized: quaternions of floats and doubles, whatever products and additions the compiler contracts. -/
theorem C155_normalized (f : Format) (hf : f = binary32 ∨ f = binary64) (k k' : Bool) (c c' : Store Bool 3) (hc : Contraction c) (hc' : Contraction c')
    (q : Model.FloatQuat.Quaternion) (p : ℍ[ℚ]) (hq : Values q p) (hlo : 2 ^ f.emin ≤ f.u * norm p) (hg : (1 + f.u) ^ 5 * norm p ≤ f.greatest) :
    ∃ out, Model.FloatQuat.normalize f k c q = some out ∧ Model.FloatQuat.normalized f k' c' out = some true := by
  have main : Usual f → (1 + f.u) ^ (4 + 1) ≤ 3 / 2 → ∀ {E : ℚ}, value (Model.FloatLength.epsilon f) = some E → (1 + f.u) * E ≤ 1 / 8 →
      (1 + f.u) * ((1 + f.u) ^ (4 + 1) * ((1 + f.u) ^ 4 / ((1 - f.u) ^ 2 * (2 - (1 + f.u) ^ (4 + 1))) + 6 * (4 : ℕ) * f.tiny) - 1) + f.tiny < E →
      (1 + f.u) * (1 - (2 - (1 + f.u) ^ (4 + 1)) * ((1 - 2 * f.u - f.u ^ 2) * ((1 - f.u) ^ 2 / (1 + f.u) ^ (4 + 3)) - 6 * (4 : ℕ) * f.tiny)) + f.tiny < E →
      ∃ out, Model.FloatQuat.normalize f k c q = some out ∧ Model.FloatQuat.normalized f k' c' out = some true := by
    intro hU hk E hE E1 hhi hlw
    obtain ⟨out, w, o1, w0, o2, w2, w3⟩ := C155_normalize_partial f hU k c hc q p hq hk hlo hg
    obtain ⟨l1, l2, l3⟩ := Props.FloatLength.accepted_core hU [p.re, p.imI, p.imJ, p.imK] rfl hk (w := w) (by rw [norm_list]; exact w2) (by rw [norm_list]; exact w3) hE E1 hhi hlw
    set p' := quat (Spec.SmallFloat.rounded f.p f.emin (p.re * w)) (Spec.SmallFloat.rounded f.p f.emin (p.imI * w)) (Spec.SmallFloat.rounded f.p f.emin (p.imJ * w))
      (Spec.SmallFloat.rounded f.p f.emin (p.imK * w)) with hp'
    have e : Proofs.FloatLength.sqSum ([p.re, p.imI, p.imJ, p.imK].map fun x => rd f (x * w)) = norm p' := by rw [← norm_list]; rfl
    rw [e] at l1 l2 l3
    obtain ⟨r, S, r1, r2, r3⟩ := dot_rel f hU k' c' hc' o2 l1 l2
    refine ⟨out, o1, ?_⟩
    unfold Model.FloatQuat.normalized
    rw [r1]
    exact congrArg some (l3 r S r2 r3)
  rcases hf with rfl | rfl
  · exact main Props.FloatLength.usual32 (by decide +kernel) Props.FloatLength.epsilon32 (by decide +kernel) (by decide +kernel) (by decide +kernel)
  · exact main Props.FloatLength.usual64 (by decide +kernel) Props.FloatLength.epsilon64 (by decide +kernel) (by decide +kernel) (by decide +kernel)

example : ∃ out, Model.FloatQuat.normalize binary32 true (.three true false false) ⟨num 1, .three (num 2) (num 3) (num (1 / 7))⟩ = some out ∧
    Model.FloatQuat.normalized binary32 false (.three false true false) out = some true :=
  C155_normalized binary32 (.inl rfl) _ _ _ _ (by simp [Contraction, parts]) (by simp [Contraction, parts]) _ (quat 1 2 3 (1 / 7)) ⟨by decide +kernel, by decide +kernel⟩
    (by decide +kernel) (by decide +kernel)

/-- What is reported as normalized is nearly so. -/
theorem C155_normalized_sound (f : Format) (tol : ℚ) (hf : f = binary32 ∧ tol = 1 / 10 ^ 6 ∨ f = binary64 ∧ tol = 1 / 10 ^ 10) (k : Bool) (c : Store Bool 3)
    (hc : Contraction c) (q : Model.FloatQuat.Quaternion) (p : ℍ[ℚ]) (hq : Values q p) (hg : (1 + f.u) ^ 4 * (norm p + 5 * f.tiny) ≤ f.greatest)
    (h : Model.FloatQuat.normalized f k c q = some true) :
    |norm p - 1| < (1 + f.u) * tol + ((1 + f.u) ^ 4 - 1) * norm p + (1 + f.u) ^ 4 * (5 * f.tiny) := by
  obtain ⟨E, e1, e2, -, -, e4, e5⟩ := Props.FloatLength.tolerance hf
  have e : (magnitudes p p).re = norm p := by
    simp only [magnitudes, norm, abs_mul_self]
    ring
  obtain ⟨r, r1, z, r2, -, -, r3⟩ := dot_near f k c hc hq hq (by rw [e]; exact hg)
  rw [e, show p.re * p.re + p.imI * p.imI + p.imJ * p.imJ + p.imK * p.imK = norm p by unfold norm; ring] at r3
  unfold Model.FloatQuat.normalized at h
  rw [r1] at h
  have h' : Proofs.Approx.test f (Model.FloatLength.epsilon f) r (.fin false 1) = true := Option.some.inj h
  obtain ⟨X, Y, x1, y1, h2⟩ := Proofs.Approx.test_sound e5 e4 h'
  rw [r2, Option.some.injEq] at x1
  simp only [value, signed, Option.some.injEq, Bool.false_eq_true, if_false] at y1
  subst x1 y1
  rcases h2 with h2 | ⟨E', e6, h2⟩
  · rw [h2] at e1; simp [value] at e1
  · rw [e1, Option.some.injEq] at e6
    subst e6
    have := abs_sub_le (norm p) z 1
    rw [abs_sub_comm _ z, abs_sub_comm z 1] at this
    linarith

example : |norm (quat (1 - 1 / 2 ^ 24) 0 0 0) - 1| < (1 + binary32.u) * (1 / 10 ^ 6) + ((1 + binary32.u) ^ 4 - 1) * norm (quat (1 - 1 / 2 ^ 24) 0 0 0) + (1 + binary32.u) ^ 4 * (5 * binary32.tiny) :=
  C155_normalized_sound binary32 _ (.inl ⟨rfl, rfl⟩) true (.three true false false) (by simp [Contraction, parts]) ⟨num (1 - 1 / 2 ^ 24), .three (num 0) (num 0) (num 0)⟩ _
    ⟨by decide +kernel, by decide +kernel⟩ (by decide +kernel) (by decide +kernel)

/-- Each component is a number of the format. -/
def Fits (f : Format) (p : ℍ[ℚ]) : Prop := Representable f p.re ∧ Representable f p.imI ∧ Representable f p.imJ ∧ Representable f p.imK

theorem exact_dot3 {f : Format} (hp : 1 ≤ f.p) (h0 : Representable f 0) (c : Store Bool 3) {x y z x' y' z' : Number} {X Y Z X' Y' Z' : ℚ} (hx : value x = some X)
    (hy : value y = some Y) (hz : value z = some Z) (hx' : value x' = some X') (hy' : value y' = some Y') (hz' : value z' = some Z') (e1 : X * X' = 0) (e2 : Y * Y' = 0)
    (e3 : Z * Z' = 0) : ∃ r, dot f c (.three x y z) (.three x' y' z') = some r ∧ value r = some 0 := by
  cases c with
  | three c1 c2 c3 =>
  have p1 := exact_product hp hx hx' (by rw [e1]; exact h0) c1
  have p2 := exact_product hp hy hy' (by rw [e2]; exact h0) c2
  have p3 := exact_product hp hz hz' (by rw [e3]; exact h0) c3
  rw [e1] at p1
  rw [e2] at p2
  rw [e3] at p3
  have s1 := value_add p1 p2
  rw [add_zero] at s1
  have s2 := value_add (exact_round hp h0 s1) p3
  rw [add_zero] at s2
  exact ⟨_, rfl, exact_round hp h0 s2⟩

/-- Multiplying with the identity changes nothing, on either side. -/
theorem C155_identity (f : Format) (hp : 1 ≤ f.p) (k : Model.FloatQuat.Choices) (q : Model.FloatQuat.Quaternion) (p : ℍ[ℚ]) (hq : Values q p) (hf : Fits f p) :
    (∃ r, Model.FloatQuat.multiply f k Model.FloatQuat.identity q = some r ∧ Values r p) ∧
    ∃ r, Model.FloatQuat.multiply f k q Model.FloatQuat.identity = some r ∧ Values r p := by
  obtain ⟨k0, kd, ks, c1, c2, c3⟩ := k
  obtain ⟨s, v⟩ := q
  obtain ⟨hs, hv⟩ := hq
  obtain ⟨x, y, z, rfl, hx, hy, hz⟩ := are3 hv
  obtain ⟨fs, fx, fy, fz⟩ := hf
  have h0 : Representable f 0 := by
    obtain ⟨w, hw, hv⟩ := fs
    exact rep_zero f ((abs_nonneg _).trans (Proofs.Approx.has_R hw hv).2)
  have v1 : value (.fin false 1) = some 1 := by simp [value, signed]
  have v0 : value (.fin false 0) = some 0 := by simp [value, signed]
  cases ks with
  | three e1 e2 e3 =>
  have scalar : ∀ {a b d : Number} {A B S : ℚ}, value a = some A → value b = some B → A * B = S → Representable f S → value d = some 0 →
      value (Op.sub.eval f (product f (a, b) k0) d) = some S := by
    intro a b d A B S ha hb hS hR hd
    subst hS
    have := Proofs.Approx.value_sub (exact_product hp ha hb hR k0) hd
    rw [sub_zero] at this
    exact exact_round hp hR this
  have comp : ∀ (e c : Bool × Bool) {a b c' d g h i j : Number} {A B C D G H I J S : ℚ}, value a = some A → value b = some B → value c' = some C → value d = some D → value g = some G →
      value h = some H → value i = some I → value j = some J → A * B = S ∧ C * D = 0 ∨ A * B = 0 ∧ C * D = S → G * H = 0 → I * J = 0 → Representable f S →
      value (Op.add.eval f (combination f e (a, b) (c', d)) (difference f c (g, h) (i, j))) = some S := by
    intro e c a b c' d g h i j A B C D G H I J S ha hb hc hd hg hh hi hj h1 h2 h3 hR
    have n1 := exact_difference hp hg hh hi hj (by rw [h2]; exact h0) (by rw [h3]; exact h0) (by rw [h2, h3, sub_zero]; exact h0) c
    rw [h2, h3, sub_zero] at n1
    have n2 : value (combination f e (a, b) (c', d)) = some S := by
      rcases h1 with ⟨h1, h4⟩ | ⟨h1, h4⟩
      · have := exact_combination hp ha hb hc hd (by rw [h1]; exact hR) (by rw [h4]; exact h0) (by rw [h1, h4, add_zero]; exact hR) e
        rwa [h1, h4, add_zero] at this
      · have := exact_combination hp ha hb hc hd (by rw [h1]; exact h0) (by rw [h4]; exact hR) (by rw [h1, h4, zero_add]; exact hR) e
        rwa [h1, h4, zero_add] at this
    have := value_add n2 n1
    rw [add_zero] at this
    exact exact_round hp hR this
  constructor
  · obtain ⟨d, d1, d2⟩ := exact_dot3 hp h0 kd v0 v0 v0 hx hy hz (zero_mul _) (zero_mul _) (zero_mul _)
    refine ⟨⟨_, .three _ _ _⟩, by unfold Model.FloatQuat.multiply Model.FloatQuat.identity; rw [d1]; rfl, scalar v1 hs (one_mul _) fs d2, are_three ?_ ?_ ?_⟩
    · exact comp e1 c1 hx v1 v0 hs v0 hz v0 hy (.inl ⟨mul_one _, zero_mul _⟩) (zero_mul _) (zero_mul _) fx
    · exact comp e2 c2 hy v1 v0 hs v0 hx v0 hz (.inl ⟨mul_one _, zero_mul _⟩) (zero_mul _) (zero_mul _) fy
    · exact comp e3 c3 hz v1 v0 hs v0 hy v0 hx (.inl ⟨mul_one _, zero_mul _⟩) (zero_mul _) (zero_mul _) fz
  · obtain ⟨d, d1, d2⟩ := exact_dot3 hp h0 kd hx hy hz v0 v0 v0 (mul_zero _) (mul_zero _) (mul_zero _)
    refine ⟨⟨_, .three _ _ _⟩, by unfold Model.FloatQuat.multiply Model.FloatQuat.identity; rw [d1]; rfl, scalar hs v1 (mul_one _) fs d2, are_three ?_ ?_ ?_⟩
    · exact comp e1 c1 v0 hs hx v1 hy v0 hz v0 (.inr ⟨zero_mul _, mul_one _⟩) (mul_zero _) (mul_zero _) fx
    · exact comp e2 c2 v0 hs hy v1 hz v0 hx v0 (.inr ⟨zero_mul _, mul_one _⟩) (mul_zero _) (mul_zero _) fy
    · exact comp e3 c3 v0 hs hz v1 hx v0 hy v0 (.inr ⟨zero_mul _, mul_one _⟩) (mul_zero _) (mul_zero _) fz

/-- The identity rotates nothing. -/
theorem C155_identity_rotate (f : Format) (hp : 1 ≤ f.p) (k : Model.FloatQuat.Turning) (v : Store Number 3) (x y z : ℚ) (hv : Are (parts v) [x, y, z])
    (hf : Representable f x ∧ Representable f y ∧ Representable f z) :
    ∃ r, Model.FloatQuat.rotateVector f k Model.FloatQuat.identity v = some r ∧ Are (parts r) [x, y, z] := by
  obtain ⟨f1, f2, f3, s1, s2, s3, ks⟩ := k
  obtain ⟨a, b, c, rfl, ha, hb, hc⟩ := are3 hv
  obtain ⟨fx, fy, fz⟩ := hf
  have h0 : Representable f 0 := by
    obtain ⟨w, hw, hv⟩ := fx
    exact rep_zero f ((abs_nonneg _).trans (Proofs.Approx.has_R hw hv).2)
  have v1 : value (.fin false 1) = some 1 := by simp [value, signed]
  have v2 : value (.fin false 2) = some 2 := by simp [value, signed]
  have v0 : value (.fin false 0) = some 0 := by simp [value, signed]
  cases ks with
  | three k1 k2 k3 =>
  have cr : ∀ (k : Bool × Bool) {a b : Number} {A B : ℚ}, value a = some A → value b = some B → value (difference f k (.fin false 0, a) (.fin false 0, b)) = some 0 := by
    intro k a b A B ha hb
    have := exact_difference hp v0 ha v0 hb (by rw [zero_mul]; exact h0) (by rw [zero_mul]; exact h0) (by rw [zero_mul, zero_mul, sub_zero]; exact h0) k
    rwa [zero_mul, zero_mul, sub_zero] at this
  have tw : ∀ {a : Number}, value a = some 0 → value (Op.mul.eval f a (.fin false 2)) = some 0 := by
    intro a ha
    have := value_mul ha v2
    rw [zero_mul] at this
    exact exact_round hp h0 this
  have t1 := tw (cr f1 hc hb)
  have t2 := tw (cr f2 ha hc)
  have t3 := tw (cr f3 hb ha)
  have fin : ∀ (k : Bool) {a t u : Number} {A : ℚ}, value a = some A → Representable f A → value t = some 0 → value u = some 0 →
      value (Op.add.eval f (Op.add.eval f a (product f (t, .fin false 1) k)) u) = some A := by
    intro k a t u A ha hA ht hu
    have p := exact_product hp ht v1 (by rw [zero_mul]; exact h0) k
    rw [zero_mul] at p
    have q := value_add ha p
    rw [add_zero] at q
    have r := value_add (exact_round hp hA q) hu
    rw [add_zero] at r
    exact exact_round hp hA r
  exact ⟨.three _ _ _, rfl, are_three (fin k1 ha fx t1 (cr s1 t3 t2)) (fin k2 hb fy t2 (cr s2 t1 t3)) (fin k3 hc fz t3 (cr s3 t2 t1))⟩

theorem rep_num {m : ℕ} {k : ℤ} (hm : m < 2 ^ 24) (hk : -149 ≤ k) (hg : (m : ℚ) * 2 ^ k ≤ binary32.greatest) : Representable binary32 (m * 2 ^ k) :=
  ⟨.fin false (m * 2 ^ k), ⟨⟨m, k, by exact_mod_cast hm, hk, rfl⟩, hg⟩, by simp [value, signed]⟩

example : ∃ r, Model.FloatQuat.rotateVector binary32 ⟨(true, false), (false, true), (false, false), (true, false), (false, true), (false, false), .three true false true⟩
    Model.FloatQuat.identity (.three (num 3) (num (1 / 2)) (num 7)) = some r ∧ Are (parts r) [3, 1 / 2, 7] :=
  C155_identity_rotate binary32 (by decide) _ _ _ _ _ (by decide +kernel)
    ⟨by simpa using rep_num (m := 3) (k := 0) (by decide) (by decide) (by decide +kernel),
      by simpa [zpow_neg] using rep_num (m := 1) (k := -1) (by decide) (by decide) (by decide +kernel),
      by simpa using rep_num (m := 7) (k := 0) (by decide) (by decide) (by decide +kernel)⟩

example : ∃ r, Model.FloatQuat.multiply binary32 ⟨true, .three false true false, .three (true, false) (false, true) (false, false), (true, false), (false, true), (false, false)⟩
    Model.FloatQuat.identity ⟨num 3, .three (num 7) (num (1 / 2)) (num 3)⟩ = some r ∧ Values r (quat 3 7 (1 / 2) 3) :=
  (C155_identity binary32 (by decide) _ _ _ ⟨by decide +kernel, by decide +kernel⟩
    ⟨show Representable binary32 3 by simpa using rep_num (m := 3) (k := 0) (by decide) (by decide) (by decide +kernel),
      show Representable binary32 7 by simpa using rep_num (m := 7) (k := 0) (by decide) (by decide) (by decide +kernel),
      show Representable binary32 (1 / 2) by simpa [zpow_neg] using rep_num (m := 1) (k := -1) (by decide) (by decide) (by decide +kernel),
      show Representable binary32 3 by simpa using rep_num (m := 3) (k := 0) (by decide) (by decide) (by decide +kernel)⟩).1

end Verif.Props.FloatQuat
