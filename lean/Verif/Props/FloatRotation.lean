import Verif.Proofs.FloatRotation
/-!
# C186: rotation matrices of floating-point numbers, from and to quaternions
-/
namespace Verif.Props.FloatRotation
open Quaternion Verif.Spec.Quaternions Verif.Spec.RotationMatrix
open Verif.Spec.Parts Verif.Spec.IeeeArith Verif.Spec.FloatFormat Verif.Spec.FloatSqrt Verif.Model.VectorStore Verif.Model.MatrixStore
open Verif.Model.FloatRotation Verif.Proofs.FloatVector Verif.Proofs.FloatError Verif.Proofs.FloatRotation
open Verif.Props.FloatVector (num)
open Verif.Props.FloatQuat (Values Error quat near_error)
open Verif.Props.FloatLength (usual32 usual64)

/-- No products are contracted; and some are. -/
def plain : Choices := ⟨fun _ _ => (false, false), fun _ => false⟩
def fused : Choices := ⟨fun r c => (decide (r ≤ c), decide (c < r)), fun i => decide (i ≠ 1)⟩

/-- The matrix of a quaternion multiplies vectors as the quaternion rotates them (`C155_turned`: as conjugation does, if its length is one). -/
theorem C186_turned (p : ℍ[ℚ]) (r : Fin 3 → ℚ) : (rotation p).mulVec r = turned p r := by
  funext i
  rw [Matrix.mulVec, dotProduct, Fin.sum_univ_three]
  match i with
  | 0 =>
    rw [rotation_00, rotation_01, rotation_02]
    simp only [turned, cross_apply, vec, Pi.add_apply, Pi.smul_apply, smul_eq_mul, Matrix.cons_val_zero, Matrix.cons_val_one, Matrix.cons_val]
    ring
  | 1 =>
    rw [rotation_10, rotation_11, rotation_12]
    simp only [turned, cross_apply, vec, Pi.add_apply, Pi.smul_apply, smul_eq_mul, Matrix.cons_val_zero, Matrix.cons_val_one, Matrix.cons_val]
    ring
  | 2 =>
    rw [rotation_20, rotation_21, rotation_22]
    simp only [turned, cross_apply, vec, Pi.add_apply, Pi.smul_apply, smul_eq_mul, Matrix.cons_val_zero, Matrix.cons_val_one, Matrix.cons_val]
    ring

example : rotation (quat (3 / 5) 0 0 (4 / 5)) = !![-7 / 25, -24 / 25, 0; 24 / 25, -7 / 25, 0; 0, 0, 1] := by decide +kernel

/-- Each entry of the matrix of a quaternion has an error of at most four roundings, relative to the sum of the magnitudes of the products that make it, whatever is contracted, if
nothing overflows; the fourth row and column, if there are any, are those of the identity. -/
theorem C186_matrix (f : Format) (k : Choices) {R C : ℕ} (hs : Shape R C) (q : Model.FloatQuat.Quaternion) (p : ℍ[ℚ]) (hq : Values q p)
    (hg : ∀ r c, (1 + f.u) ^ 4 * (rotationMagnitudes p r c + 8 * f.tiny) ≤ f.greatest) :
    ∃ (m : Mat Number R C) (S : Matrix (Fin 3) (Fin 3) ℚ), fromQuaternion f k R C q = some m ∧ (∀ r c : Fin 3, (get m r c).bind value = some (S r c)) ∧
      (∀ r c, Error f 4 (rotationMagnitudes p r c) (8 * f.tiny) (S r c) (rotation p r c)) ∧
      ∀ r c : ℕ, r < R → c < C → 3 ≤ r ∨ 3 ≤ c → (get m r c).bind value = some (if r = c then 1 else 0) := by
  obtain ⟨m, h1, h2, h3⟩ := matrix_near f k hs hq hg
  choose x gx nx using h2
  choose S vx hS using fun r c => near_error (nx r c)
  refine ⟨m, S, h1, fun r c => by rw [gx r c]; exact vx r c, hS, fun r c hr hc h => ?_⟩
  rw [h3 r c hr hc h]
  simp [value, signed]

example : ∃ (m : Mat Number 4 4) (S : Matrix (Fin 3) (Fin 3) ℚ), fromQuaternion binary32 fused 4 4 ⟨num 1, .three (num 2) (num (-3)) (num 4)⟩ = some m ∧
    (∀ r c : Fin 3, (get m r c).bind value = some (S r c)) ∧ Error binary32 4 20 (8 * binary32.tiny) (S 0 1) (-20) ∧ Error binary32 4 51 (8 * binary32.tiny) (S 0 0) (-49) ∧
    (get m 3 3).bind value = some 1 ∧ (get m 0 3).bind value = some 0 := by
  obtain ⟨m, S, h1, h2, h3, h4⟩ := C186_matrix binary32 fused (R := 4) (C := 4) (by simp [Shape]) ⟨num 1, .three (num 2) (num (-3)) (num 4)⟩ (quat 1 2 (-3) 4)
    ⟨by decide +kernel, by decide +kernel⟩ (by decide +kernel)
  have a := h3 0 1
  have b := h3 0 0
  rw [show rotationMagnitudes (quat 1 2 (-3) 4) 0 1 = 20 by decide +kernel, show rotation (quat 1 2 (-3) 4) 0 1 = -20 by decide +kernel] at a
  rw [show rotationMagnitudes (quat 1 2 (-3) 4) 0 0 = 51 by decide +kernel, show rotation (quat 1 2 (-3) 4) 0 0 = -49 by decide +kernel] at b
  exact ⟨m, S, h1, h2, a, b, h4 3 3 (by norm_num) (by norm_num) (by norm_num), h4 0 3 (by norm_num) (by norm_num) (by norm_num)⟩

/-- The matrix of a quaternion of length about one is about orthogonal: the dot products of its columns are those of the axes, but for five times what the squared length differs
from one, and 128 units of round-off. -/
theorem C186_orthogonal (f : Format) (hf : Usual f) (hp : 14 ≤ f.p) (k : Choices) {R C : ℕ} (hs : Shape R C) (q : Model.FloatQuat.Quaternion) (p : ℍ[ℚ]) (hq : Values q p)
    (d : ℚ) (hd : |squaredLength p - 1| ≤ d) (h : d ≤ 1 / 512) :
    ∃ (m : Mat Number R C) (S : Matrix (Fin 3) (Fin 3) ℚ), fromQuaternion f k R C q = some m ∧ (∀ r c : Fin 3, (get m r c).bind value = some (S r c)) ∧
      ∀ i j, |(S.transpose * S) i j - (1 : Matrix (Fin 3) (Fin 3) ℚ) i j| ≤ 5 * d + 128 * f.u := by
  have hu := u_pos f
  have hu1 : f.u ≤ 1 / 16384 := by
    unfold Format.u
    have : (2 : ℚ) ^ 14 ≤ 2 ^ f.p := pow_le_pow_right₀ (by norm_num) hp
    rw [div_le_div_iff₀ (by positivity) (by norm_num)]
    linarith
  obtain ⟨m, S, h1, h2, h3⟩ := matrix_close hf hp k hs hq (by linarith [(abs_le.1 hd).2])
  refine ⟨m, S, h1, h2, fun i j => ?_⟩
  have t := abs_le.1 (rotation_orthogonal p hd h i j)
  have c : ∀ r, |S r i * S r j - rotation p r i * rotation p r j| ≤ 203 / 100 * (15 * f.u) := fun r =>
    product_close (h3 r i) (h3 r j) (rotation_le p hd h r i) (rotation_le p hd h r j) (by linarith)
  have c0 := abs_le.1 (c 0)
  have c1 := abs_le.1 (c 1)
  have c2 := abs_le.1 (c 2)
  rw [Matrix.mul_apply, Fin.sum_univ_three, Matrix.one_apply, abs_le]
  simp only [Matrix.transpose_apply]
  constructor <;> linarith [t.1, t.2, c0.1, c0.2, c1.1, c1.2, c2.1, c2.2]

example : ∃ (m : Mat Number 3 3) (S : Matrix (Fin 3) (Fin 3) ℚ), fromQuaternion binary64 fused 3 3 ⟨num (-385 / 1024), .three (num (700 / 1024)) (num (-500 / 1024)) (num (400 / 1024))⟩ = some m ∧
    (∀ r c : Fin 3, (get m r c).bind value = some (S r c)) ∧ ∀ i j, |(S.transpose * S) i j - (1 : Matrix (Fin 3) (Fin 3) ℚ) i j| ≤ 5 * (351 / 1048576) + 128 * binary64.u :=
  C186_orthogonal binary64 usual64 (by decide) fused (by simp [Shape]) ⟨num (-385 / 1024), .three (num (700 / 1024)) (num (-500 / 1024)) (num (400 / 1024))⟩ (quat (-385 / 1024) (700 / 1024) (-500 / 1024) (400 / 1024))
    ⟨by decide +kernel, by decide +kernel⟩ (351 / 1048576) (by decide +kernel) (by norm_num)

/-- The quaternion of a matrix that is nearly that of a rotation is nearly the quaternion of this rotation, or its negation (which is the same rotation): its components differ by at
most four times what the entries of the matrix do, four times what the squared length differs from one, and 29 units of round-off. -/
theorem C186_quaternion (f : Format) (hf : Usual f) (hp : 8 ≤ f.p) {R C : ℕ} (m : Mat Number R C) (S : Matrix (Fin 3) (Fin 3) ℚ)
    (hm : ∀ r c : Fin 3, (get m r c).bind value = some (S r c)) (p : ℍ[ℚ]) (d e : ℚ) (hS : ∀ r c, |S r c - rotation p r c| ≤ e) (hd : |squaredLength p - 1| ≤ d)
    (hs : f.u + e + d ≤ 1 / 256) :
    ∃ q w, fromRotation f m = some q ∧ Values q w ∧ (Within (29 * f.u + 4 * e + 4 * d) w p ∨ Within (29 * f.u + 4 * e + 4 * d) w (-p)) :=
  quaternion_near hf hp m S hm p hS hd hs

/-- A third of a turn, with entries that are off by a thousandth. -/
example : ∃ q w, fromRotation binary32 (fun c : Fin 3 => match c with
      | 0 => .three (num (1 / 1024)) (num 1) (num 0) | 1 => .three (num 0) (num 0) (num 1) | 2 => .three (num (1023 / 1024)) (num (-1 / 1024)) (num 0)) = some q ∧ Values q w ∧
    (Within (29 * binary32.u + 4 * (1 / 1024) + 4 * 0) w (quat (1 / 2) (1 / 2) (1 / 2) (1 / 2)) ∨
      Within (29 * binary32.u + 4 * (1 / 1024) + 4 * 0) w (-(quat (1 / 2) (1 / 2) (1 / 2) (1 / 2)))) :=
  C186_quaternion binary32 usual32 (by decide) _ !![1 / 1024, 0, 1023 / 1024; 1, 0, -1 / 1024; 0, 1, 0] (by decide +kernel) (quat (1 / 2) (1 / 2) (1 / 2) (1 / 2)) 0 (1 / 1024)
    (by decide +kernel) (by decide +kernel) (by decide +kernel)

/-- From a quaternion to a matrix and back, whatever is contracted and whatever the shape of the matrix: the same quaternion, or its negation, but for four times what its squared length
differs from one, and 96 units of round-off. -/
theorem C186_round_trip (f : Format) (hf : Usual f) (hp : 14 ≤ f.p) (k : Choices) {R C : ℕ} (hs : Shape R C) (q : Model.FloatQuat.Quaternion) (p : ℍ[ℚ]) (hq : Values q p)
    (d : ℚ) (hd : |squaredLength p - 1| ≤ d) (h : d ≤ 1 / 512) :
    ∃ (m : Mat Number R C) (q' : _) (w : ℍ[ℚ]), fromQuaternion f k R C q = some m ∧ fromRotation f m = some q' ∧ Values q' w ∧
      (Within (96 * f.u + 4 * d) w p ∨ Within (96 * f.u + 4 * d) w (-p)) := by
  have hu := u_pos f
  have hu1 : f.u ≤ 1 / 16384 := by
    unfold Format.u
    have : (2 : ℚ) ^ 14 ≤ 2 ^ f.p := pow_le_pow_right₀ (by norm_num) hp
    rw [div_le_div_iff₀ (by positivity) (by norm_num)]
    linarith
  obtain ⟨m, S, h1, h2, h3⟩ := matrix_close hf hp k hs hq (by linarith [(abs_le.1 hd).2])
  obtain ⟨q', w, o1, o2, o3⟩ := quaternion_near hf (by omega) m S h2 p h3 hd (by linarith)
  refine ⟨m, q', w, h1, o1, o2, ?_⟩
  have weaken : ∀ p' : ℍ[ℚ], Within (29 * f.u + 4 * (15 * f.u) + 4 * d) w p' → Within (96 * f.u + 4 * d) w p' := fun p' ⟨a, b, c, d⟩ =>
    ⟨by linarith, by linarith, by linarith, by linarith⟩
  exact o3.imp (weaken p) (weaken (-p))

example : ∃ (m : Mat Number 3 4) (q' : _) (w : ℍ[ℚ]), fromQuaternion binary32 fused 3 4 ⟨num (-385 / 1024), .three (num (700 / 1024)) (num (-500 / 1024)) (num (400 / 1024))⟩ = some m ∧
    fromRotation binary32 m = some q' ∧ Values q' w ∧ (Within (96 * binary32.u + 4 * (351 / 1048576)) w (quat (-385 / 1024) (700 / 1024) (-500 / 1024) (400 / 1024)) ∨
      Within (96 * binary32.u + 4 * (351 / 1048576)) w (-(quat (-385 / 1024) (700 / 1024) (-500 / 1024) (400 / 1024)))) :=
  C186_round_trip binary32 usual32 (by decide) fused (by simp [Shape]) ⟨num (-385 / 1024), .three (num (700 / 1024)) (num (-500 / 1024)) (num (400 / 1024))⟩ (quat (-385 / 1024) (700 / 1024) (-500 / 1024) (400 / 1024))
    ⟨by decide +kernel, by decide +kernel⟩ (351 / 1048576) (by decide +kernel) (by norm_num)

/-- The four cases of the matrix, and the sign. -/
example : ([(1, 0, 0, 0), (0, -1, 0, 0), (0, 0, 1, 0), (0, 0, 0, -1), (1 / 2, -1 / 2, 1 / 2, -1 / 2)].map fun (s, x, y, z) =>
      (fromQuaternion binary64 plain 4 4 ⟨num s, .three (num x) (num y) (num z)⟩).bind fun m => (fromRotation binary64 m).bind fun q => (q.s :: parts q.v).mapM value) =
    [some [1, 0, 0, 0], some [0, 1, 0, 0], some [0, 0, 1, 0], some [0, 0, 0, 1], some [-1 / 2, 1 / 2, -1 / 2, 1 / 2]] := by decide +kernel

/-- What `normalized` accepts survives the round trip: floats within `1 / 50000`, doubles within `1 / 10 ^ 9`. -/
theorem C186_normalized (f : Format) (tol : ℚ) (hf : f = binary32 ∧ tol = 1 / 50000 ∨ f = binary64 ∧ tol = 1 / 10 ^ 9) (k : Choices) (k' : Bool) (c : Store Bool 3)
    (hc : Model.FloatVector.Contraction c) {R C : ℕ} (hs : Shape R C) (q : Model.FloatQuat.Quaternion) (p : ℍ[ℚ]) (hq : Values q p)
    (hg : (1 + f.u) ^ 4 * (squaredLength p + 5 * f.tiny) ≤ f.greatest) (hn : Model.FloatQuat.normalized f k' c q = some true) :
    ∃ (m : Mat Number R C) (q' : _) (w : ℍ[ℚ]), fromQuaternion f k R C q = some m ∧ fromRotation f m = some q' ∧ Values q' w ∧ (Within tol w p ∨ Within tol w (-p)) := by
  have n0 : 0 ≤ squaredLength p := by unfold squaredLength; positivity
  have main : ∀ (tol' d : ℚ), (f = binary32 ∧ tol' = 1 / 10 ^ 6 ∨ f = binary64 ∧ tol' = 1 / 10 ^ 10) → Usual f → 14 ≤ f.p → d ≤ 1 / 512 → 96 * f.u + 4 * d ≤ tol →
      (1 + f.u) ^ 4 - 1 ≤ 1 / 2 → (1 + f.u) * tol' + (1 + f.u) ^ 4 * (5 * f.tiny) + ((1 + f.u) ^ 4 - 1) * 3 ≤ d → d < 1 / 2 →
      ∃ (m : Mat Number R C) (q' : _) (w : ℍ[ℚ]), fromQuaternion f k R C q = some m ∧ fromRotation f m = some q' ∧ Values q' w ∧ (Within tol w p ∨ Within tol w (-p)) := by
    intro tol' d h1 hU hp hd ht hb hd' hd''
    have e := FloatQuat.C155_normalized_sound f tol' h1 k' c hc q p hq hg hn
    change |squaredLength p - 1| < (1 + f.u) * tol' + ((1 + f.u) ^ 4 - 1) * squaredLength p + (1 + f.u) ^ 4 * (5 * f.tiny) at e
    have p1 := one_le f 4
    have b1 : ((1 + f.u) ^ 4 - 1) * squaredLength p ≤ 1 / 2 * squaredLength p := mul_le_mul_of_nonneg_right hb n0
    have p3 : 0 ≤ ((1 + f.u) ^ 4 - 1) * 3 := by linarith
    have n3 : squaredLength p ≤ 3 := by linarith [(abs_lt.1 e).2]
    have b2 : ((1 + f.u) ^ 4 - 1) * squaredLength p ≤ ((1 + f.u) ^ 4 - 1) * 3 := mul_le_mul_of_nonneg_left n3 (by linarith)
    obtain ⟨m, q', w, o1, o2, o3, o4⟩ := C186_round_trip f hU hp k hs q p hq d (by linarith) hd
    have weaken : ∀ p' : ℍ[ℚ], Within (96 * f.u + 4 * d) w p' → Within tol w p' := fun p' ⟨a, b, c, d⟩ => ⟨by linarith, by linarith, by linarith, by linarith⟩
    exact ⟨m, q', w, o1, o2, o3, o4.imp (weaken p) (weaken (-p))⟩
  rcases hf with ⟨rfl, rfl⟩ | ⟨rfl, rfl⟩
  · exact main (1 / 10 ^ 6) (2 / 10 ^ 6) (.inl ⟨rfl, rfl⟩) usual32 (by decide) (by norm_num) (by decide +kernel) (by decide +kernel) (by decide +kernel) (by norm_num)
  · exact main (1 / 10 ^ 10) (2 / 10 ^ 10) (.inr ⟨rfl, rfl⟩) usual64 (by decide) (by norm_num) (by decide +kernel) (by decide +kernel) (by decide +kernel) (by norm_num)

example : ∃ (m : Mat Number 4 4) (q' : _) (w : ℍ[ℚ]), fromQuaternion binary32 fused 4 4 ⟨num (Spec.SmallFloat.rounded 24 (-126) (1 / 3)), .three (num (Spec.SmallFloat.rounded 24 (-126) (2 / 3)))
      (num (Spec.SmallFloat.rounded 24 (-126) (-2 / 3))) (num 0)⟩ = some m ∧ fromRotation binary32 m = some q' ∧ Values q' w ∧
    (Within (1 / 50000) w (quat (Spec.SmallFloat.rounded 24 (-126) (1 / 3)) (Spec.SmallFloat.rounded 24 (-126) (2 / 3)) (Spec.SmallFloat.rounded 24 (-126) (-2 / 3)) 0) ∨
      Within (1 / 50000) w (-(quat (Spec.SmallFloat.rounded 24 (-126) (1 / 3)) (Spec.SmallFloat.rounded 24 (-126) (2 / 3)) (Spec.SmallFloat.rounded 24 (-126) (-2 / 3)) 0))) :=
  C186_normalized binary32 _ (.inl ⟨rfl, rfl⟩) fused true (.three true false false) (by simp [Model.FloatVector.Contraction, parts]) (by simp [Shape]) _ _
    ⟨by decide +kernel, by decide +kernel⟩ (by decide +kernel) (by decide +kernel)

end Verif.Props.FloatRotation
