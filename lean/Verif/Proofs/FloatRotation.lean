import Verif.Spec.RotationMatrix
import Verif.Model.FloatRotation
import Verif.Proofs.FloatSegment
import Verif.Props.FloatQuat
import Mathlib.Tactic.Linarith
import Mathlib.Tactic.Positivity
import Mathlib.Tactic.FinCases
import Mathlib.Tactic.LinearCombination
/-! # Lemmas for C186 -/
namespace Verif.Proofs.FloatRotation
open Quaternion Verif.Spec.Quaternions Verif.Spec.RotationMatrix
open Verif.Spec.Parts Verif.Spec.IeeeArith Verif.Spec.FloatFormat Verif.Spec.FloatSqrt Verif.Model.VectorStore Verif.Model.MatrixStore
open Verif.Model.FloatVector
open Verif.Model.FloatProducts Verif.Model.FloatRotation Verif.Proofs.FloatVector Verif.Proofs.FloatProducts Verif.Proofs.FloatError
open Verif.Props.FloatCross (are3)
open Verif.Props.FloatQuat (Values combination_near difference_near)

/-! ## The exact matrix -/

theorem rotation_00 (p : ℍ[ℚ]) : rotation p 0 0 = 1 - 2 * (p.imJ * p.imJ + p.imK * p.imK) := by
  simp [rotation, turned, cross_apply, vec, Matrix.vecHead, Matrix.vecTail]; ring
theorem rotation_01 (p : ℍ[ℚ]) : rotation p 0 1 = 2 * (p.imI * p.imJ - p.re * p.imK) := by
  simp [rotation, turned, cross_apply, vec, Matrix.vecHead, Matrix.vecTail]; ring
theorem rotation_02 (p : ℍ[ℚ]) : rotation p 0 2 = 2 * (p.re * p.imJ + p.imI * p.imK) := by
  simp [rotation, turned, cross_apply, vec, Matrix.vecHead, Matrix.vecTail]; ring
theorem rotation_10 (p : ℍ[ℚ]) : rotation p 1 0 = 2 * (p.imI * p.imJ + p.re * p.imK) := by
  simp [rotation, turned, cross_apply, vec, Matrix.vecHead, Matrix.vecTail]; ring
theorem rotation_11 (p : ℍ[ℚ]) : rotation p 1 1 = 1 - 2 * (p.imI * p.imI + p.imK * p.imK) := by
  simp [rotation, turned, cross_apply, vec, Matrix.vecHead, Matrix.vecTail]; ring
theorem rotation_12 (p : ℍ[ℚ]) : rotation p 1 2 = 2 * (p.imJ * p.imK - p.re * p.imI) := by
  simp [rotation, turned, cross_apply, vec, Matrix.vecHead, Matrix.vecTail]; ring
theorem rotation_20 (p : ℍ[ℚ]) : rotation p 2 0 = 2 * (p.imI * p.imK - p.re * p.imJ) := by
  simp [rotation, turned, cross_apply, vec, Matrix.vecHead, Matrix.vecTail]; ring
theorem rotation_21 (p : ℍ[ℚ]) : rotation p 2 1 = 2 * (p.re * p.imI + p.imJ * p.imK) := by
  simp [rotation, turned, cross_apply, vec, Matrix.vecHead, Matrix.vecTail]; ring
theorem rotation_22 (p : ℍ[ℚ]) : rotation p 2 2 = 1 - 2 * (p.imI * p.imI + p.imJ * p.imJ) := by
  simp [rotation, turned, cross_apply, vec, Matrix.vecHead, Matrix.vecTail]; ring

theorem magnitudes_00 (p : ℍ[ℚ]) : rotationMagnitudes p 0 0 = 1 + 2 * (|p.imJ * p.imJ| + |p.imK * p.imK|) := by
  simp [rotationMagnitudes, turnedMagnitudes, crossMagnitudes, vec, Matrix.vecHead, Matrix.vecTail]
theorem magnitudes_01 (p : ℍ[ℚ]) : rotationMagnitudes p 0 1 = 2 * (|p.imI * p.imJ| + |p.re * p.imK|) := by
  simp [rotationMagnitudes, turnedMagnitudes, crossMagnitudes, vec, Matrix.vecHead, Matrix.vecTail, abs_mul]; ring
theorem magnitudes_02 (p : ℍ[ℚ]) : rotationMagnitudes p 0 2 = 2 * (|p.re * p.imJ| + |p.imI * p.imK|) := by
  simp [rotationMagnitudes, turnedMagnitudes, crossMagnitudes, vec, Matrix.vecHead, Matrix.vecTail, abs_mul]; ring
theorem magnitudes_10 (p : ℍ[ℚ]) : rotationMagnitudes p 1 0 = 2 * (|p.imI * p.imJ| + |p.re * p.imK|) := by
  simp [rotationMagnitudes, turnedMagnitudes, crossMagnitudes, vec, Matrix.vecHead, Matrix.vecTail, abs_mul]; ring
theorem magnitudes_11 (p : ℍ[ℚ]) : rotationMagnitudes p 1 1 = 1 + 2 * (|p.imI * p.imI| + |p.imK * p.imK|) := by
  simp [rotationMagnitudes, turnedMagnitudes, crossMagnitudes, vec, Matrix.vecHead, Matrix.vecTail]; ring
theorem magnitudes_12 (p : ℍ[ℚ]) : rotationMagnitudes p 1 2 = 2 * (|p.imJ * p.imK| + |p.re * p.imI|) := by
  simp [rotationMagnitudes, turnedMagnitudes, crossMagnitudes, vec, Matrix.vecHead, Matrix.vecTail, abs_mul]; ring
theorem magnitudes_20 (p : ℍ[ℚ]) : rotationMagnitudes p 2 0 = 2 * (|p.imI * p.imK| + |p.re * p.imJ|) := by
  simp [rotationMagnitudes, turnedMagnitudes, crossMagnitudes, vec, Matrix.vecHead, Matrix.vecTail, abs_mul]; ring
theorem magnitudes_21 (p : ℍ[ℚ]) : rotationMagnitudes p 2 1 = 2 * (|p.re * p.imI| + |p.imJ * p.imK|) := by
  simp [rotationMagnitudes, turnedMagnitudes, crossMagnitudes, vec, Matrix.vecHead, Matrix.vecTail, abs_mul]; ring
theorem magnitudes_22 (p : ℍ[ℚ]) : rotationMagnitudes p 2 2 = 1 + 2 * (|p.imI * p.imI| + |p.imJ * p.imJ|) := by
  simp [rotationMagnitudes, turnedMagnitudes, crossMagnitudes, vec, Matrix.vecHead, Matrix.vecTail]

/-! ## To a matrix -/

theorem two_near (f : Format) : Near f 0 2 0 (.fin false 2) 2 := by
  have := Near.exact f (x := .fin false 2) (X := 2) (by simp [value, signed])
  rwa [abs_two] at this

theorem plus_near (f : Format) (k : Bool × Bool) {a b c d : Number} {A B C D : ℚ} (ha : value a = some A) (hb : value b = some B) (hc : value c = some C)
    (hd : value d = some D) (hg : (1 + f.u) ^ 4 * (2 * (|A * B| + |C * D|) + 8 * f.tiny) ≤ f.greatest) :
    Near f 4 (2 * (|A * B| + |C * D|)) (8 * f.tiny) (Op.mul.eval f (.fin false 2) (combination f k (a, b) (c, d))) (2 * (A * B + C * D)) := by
  have ht := tiny_pos f
  have a0 := abs_nonneg (A * B)
  have a1 := abs_nonneg (C * D)
  have n := combination_near f k ha hb hc hd (grow (by norm_num) (by linarith) (by linarith) hg)
  have m := ((two_near f).mul n).round (grow (by norm_num) (by linarith) (by linarith) hg)
  exact m.mono (by norm_num) (by linarith) (by linarith)

theorem minus_near (f : Format) (k : Bool × Bool) {a b c d : Number} {A B C D : ℚ} (ha : value a = some A) (hb : value b = some B) (hc : value c = some C)
    (hd : value d = some D) (hg : (1 + f.u) ^ 4 * (2 * (|A * B| + |C * D|) + 8 * f.tiny) ≤ f.greatest) :
    Near f 4 (2 * (|A * B| + |C * D|)) (8 * f.tiny) (Op.mul.eval f (.fin false 2) (difference f k (a, b) (c, d))) (2 * (A * B - C * D)) := by
  have ht := tiny_pos f
  have a0 := abs_nonneg (A * B)
  have a1 := abs_nonneg (C * D)
  have n := difference_near f k ha hb hc hd (grow (by norm_num) (by linarith) (by linarith) hg)
  have m := ((two_near f).mul n).round (grow (by norm_num) (by linarith) (by linarith) hg)
  exact m.mono (by norm_num) (by linarith) (by linarith)

theorem diagonal_near (f : Format) (k : Bool × Bool) (k' : Bool) {a b : Number} {A B : ℚ} (ha : value a = some A) (hb : value b = some B)
    (hg : (1 + f.u) ^ 4 * (1 + 2 * (|A * A| + |B * B|) + 8 * f.tiny) ≤ f.greatest) :
    Near f 4 (1 + 2 * (|A * A| + |B * B|)) (8 * f.tiny)
      (Op.sub.eval f (.fin false 1) (product f (.fin false 2, combination f k (a, a) (b, b)) k')) (1 - 2 * (A * A + B * B)) := by
  have ht := tiny_pos f
  have a0 := abs_nonneg (A * A)
  have a1 := abs_nonneg (B * B)
  have n := combination_near f k ha ha hb hb (grow (by norm_num) (by linarith) (by linarith) hg)
  have m := (two_near f).product n k' (grow (by norm_num) (by linarith) (by linarith) hg)
  have one : Near f 0 1 0 (.fin false 1) 1 := by
    have := Near.exact f (x := .fin false 1) (X := 1) (by simp [value, signed])
    rwa [abs_one] at this
  have o := ((one.mono (k' := 3) (by norm_num) le_rfl le_rfl).sub m).round (grow (by norm_num) (by linarith) (by linarith) hg)
  exact o.mono (by norm_num) (by linarith) (by linarith)

/-- The entries of a matrix that has at least three rows and columns. -/
theorem matrix_near (f : Format) (k : Choices) {R C : ℕ} (hs : Shape R C) {q : Model.FloatQuat.Quaternion} {p : ℍ[ℚ]} (hq : Values q p)
    (hg : ∀ r c, (1 + f.u) ^ 4 * (rotationMagnitudes p r c + 8 * f.tiny) ≤ f.greatest) :
    ∃ m : Mat Number R C, fromQuaternion f k R C q = some m ∧
      (∀ r c : Fin 3, ∃ x, get m r c = some x ∧ Near f 4 (rotationMagnitudes p r c) (8 * f.tiny) x (rotation p r c)) ∧
      (∀ r c : ℕ, r < R → c < C → 3 ≤ r ∨ 3 ≤ c → get m r c = some (.fin false (if r = c then 1 else 0))) := by
  obtain ⟨s, v⟩ := q
  obtain ⟨hre, hv⟩ := hq
  obtain ⟨x, y, z, rfl, hx, hy, hz⟩ := are3 hv
  have n00 := diagonal_near f (k.sum 0 0) (k.one 0) hy hz (by rw [← magnitudes_00]; exact hg 0 0)
  have n11 := diagonal_near f (k.sum 1 1) (k.one 1) hx hz (by rw [← magnitudes_11]; exact hg 1 1)
  have n22 := diagonal_near f (k.sum 2 2) (k.one 2) hx hy (by rw [← magnitudes_22]; exact hg 2 2)
  have n10 := plus_near f (k.sum 1 0) hx hy hre hz (by rw [← magnitudes_10]; exact hg 1 0)
  have n20 := minus_near f (k.sum 2 0) hx hz hre hy (by rw [← magnitudes_20]; exact hg 2 0)
  have n01 := minus_near f (k.sum 0 1) hx hy hre hz (by rw [← magnitudes_01]; exact hg 0 1)
  have n21 := plus_near f (k.sum 2 1) hre hx hy hz (by rw [← magnitudes_21]; exact hg 2 1)
  have n02 := plus_near f (k.sum 0 2) hre hy hx hz (by rw [← magnitudes_02]; exact hg 0 2)
  have n12 := minus_near f (k.sum 1 2) hy hz hre hx (by rw [← magnitudes_12]; exact hg 1 2)
  rw [← magnitudes_00, ← rotation_00] at n00
  rw [← magnitudes_11, ← rotation_11] at n11
  rw [← magnitudes_22, ← rotation_22] at n22
  rw [← magnitudes_10, ← rotation_10] at n10
  rw [← magnitudes_20, ← rotation_20] at n20
  rw [← magnitudes_01, ← rotation_01] at n01
  rw [← magnitudes_21, ← rotation_21] at n21
  rw [← magnitudes_02, ← rotation_02] at n02
  rw [← magnitudes_12, ← rotation_12] at n12
  rcases hs with ⟨rfl, rfl⟩ | ⟨rfl, rfl⟩ | ⟨rfl, rfl⟩
  · refine ⟨_, rfl, fun r c => ?_, fun r c hr hc h => by omega⟩
    fin_cases r <;> fin_cases c
    exacts [⟨_, rfl, n00⟩, ⟨_, rfl, n01⟩, ⟨_, rfl, n02⟩, ⟨_, rfl, n10⟩, ⟨_, rfl, n11⟩, ⟨_, rfl, n12⟩, ⟨_, rfl, n20⟩, ⟨_, rfl, n21⟩, ⟨_, rfl, n22⟩]
  · refine ⟨_, rfl, fun r c => ?_, fun r c hr hc h => ?_⟩
    · fin_cases r <;> fin_cases c
      exacts [⟨_, rfl, n00⟩, ⟨_, rfl, n01⟩, ⟨_, rfl, n02⟩, ⟨_, rfl, n10⟩, ⟨_, rfl, n11⟩, ⟨_, rfl, n12⟩, ⟨_, rfl, n20⟩, ⟨_, rfl, n21⟩, ⟨_, rfl, n22⟩]
    · obtain rfl : c = 3 := by omega
      interval_cases r <;> rfl
  · refine ⟨_, rfl, fun r c => ?_, fun r c hr hc h => ?_⟩
    · fin_cases r <;> fin_cases c
      exacts [⟨_, rfl, n00⟩, ⟨_, rfl, n01⟩, ⟨_, rfl, n02⟩, ⟨_, rfl, n10⟩, ⟨_, rfl, n11⟩, ⟨_, rfl, n12⟩, ⟨_, rfl, n20⟩, ⟨_, rfl, n21⟩, ⟨_, rfl, n22⟩]
    · interval_cases r <;> interval_cases c <;> first | rfl | omega

/-! ## From a matrix -/

/-- A rounding of a number that is not large. -/
theorem step {f : Format} (hf : Usual f) (hp : 8 ≤ f.p) {x : Number} {z B : ℚ} (h : value x = some z) (hB : |z| ≤ B) (h8 : B ≤ 8) :
    ∃ w, value (f.round x) = some w ∧ |w - z| ≤ (B + 1 / 4) * f.u := by
  have hu := u_pos f
  have hu1 := (FloatSegment.small hp).1
  have e := err f z
  have t : f.tiny ≤ f.u * (1 / 4) := by
    rw [FloatLength.tiny_eq]
    exact mul_le_mul_of_nonneg_left (FloatLength.emin_le hf) hu.le
  have m : f.u * |z| ≤ f.u * B := mul_le_mul_of_nonneg_left hB hu.le
  have e' : |rd f z - z| ≤ (B + 1 / 4) * f.u := by linarith
  refine ⟨rd f z, value_round f h ?_, e'⟩
  have g : (16 : ℚ) ≤ f.greatest := by
    refine le_trans ?_ hf.wide
    have : (2 : ℚ) ^ (4 : ℤ) ≤ 2 ^ (-f.emin) := zpow_le_zpow_right₀ (by norm_num) (by have := hf.least; omega)
    exact le_trans (by norm_num) this
  have := abs_add_le z (rd f z - z)
  rw [add_sub_cancel] at this
  have : (B + 1 / 4) * f.u ≤ (8 + 1 / 4) * f.u := mul_le_mul_of_nonneg_right (by linarith) hu.le
  linarith

/-- What is computed from the diagonal: the largest component, and a quarter of its reciprocal. -/
theorem leading {f : Format} (hf : Usual f) (hp : 8 ≤ f.p) {x : Number} {A a d e : ℚ} (d0 : 0 ≤ d) (e0 : 0 ≤ e) (hs : f.u + e + d ≤ 1 / 256) (hx : value x = some A)
    (hA : |A - 4 * a ^ 2| ≤ 15 * f.u + 3 * e + 4 * d) (a0 : 0 < a) (ha : 1 - 9 * f.u - 5 * e - 4 * d ≤ 4 * a ^ 2) (ha' : a ^ 2 ≤ 1 + d) :
    let s := Op.mul.eval f (sqrt f x) (.fin false 2)
    (∃ q, value (Op.mul.eval f (.fin false (1 / 4)) s) = some q ∧ |q - a| ≤ 29 * f.u + 4 * e + 4 * d) ∧
    ∃ i, value (reciprocal f s) = some i ∧ |i - 1 / (4 * a)| ≤ 12 * f.u + 13 / 10 * e + 9 / 5 * d := by
  intro s
  have hu := u_pos f
  have hA1 := abs_le.1 hA
  have A0 : 7 / 8 ≤ A := by linarith [hA1.1]
  have A5 : A ≤ 33 / 8 := by linarith [hA1.2]
  obtain ⟨r0, r1, r2⟩ := FloatLength.root_sq f (by omega) (q := A) (by linarith)
  have hr := FloatLength.sqrt_value f hx (by linarith)
  obtain ⟨r, hrr⟩ : ∃ r, r = root f.p A := ⟨_, rfl⟩
  rw [← hrr] at r0 r1 r2 hr
  have uu : f.u * f.u ≤ f.u * (1 / 256) := mul_le_mul_of_nonneg_left (by linarith) hu.le
  have uA : f.u * A ≤ f.u * (33 / 8) := mul_le_mul_of_nonneg_left A5 hu.le
  have uA0 : 0 ≤ f.u * A := by positivity
  have uuA : f.u * f.u * A ≤ f.u * (1 / 256) * A := mul_le_mul_of_nonneg_right uu (by linarith)
  have uuA0 : 0 ≤ f.u * f.u * A := by positivity
  have sq : |r ^ 2 - 4 * a ^ 2| ≤ 24 * f.u + 3 * e + 4 * d := by
    rw [abs_le]
    constructor <;> linarith [hA1.1, hA1.2]
  have sq1 := abs_le.1 sq
  have rl : 9 / 10 ≤ r := by
    by_contra h
    rw [not_le] at h
    have : r * r < 9 / 10 * (9 / 10) := mul_lt_mul'' h h r0.le r0.le
    linarith [sq1.1]
  have ru : r ≤ 41 / 20 := by
    by_contra h
    rw [not_le] at h
    have : 41 / 20 * (41 / 20) < r * r := mul_lt_mul'' h h (by norm_num) (by norm_num)
    linarith [sq1.2]
  have al : 19 / 40 ≤ a := by
    by_contra h
    rw [not_le] at h
    have : a * a < 19 / 40 * (19 / 40) := mul_lt_mul'' h h a0.le a0.le
    linarith
  have au : a ≤ 51 / 50 := by
    by_contra h
    rw [not_le] at h
    have : 51 / 50 * (51 / 50) < a * a := mul_lt_mul'' h h (by norm_num) (by norm_num)
    linarith
  have dr : |r - 2 * a| ≤ 5 / 9 * (24 * f.u + 3 * e + 4 * d) := by
    have : |r - 2 * a| * (r + 2 * a) = |r ^ 2 - 4 * a ^ 2| := by
      rw [show r ^ 2 - 4 * a ^ 2 = (r - 2 * a) * (r + 2 * a) by ring, abs_mul, abs_of_nonneg (show 0 ≤ r + 2 * a by linarith)]
    have h2 : |r - 2 * a| * (9 / 5) ≤ |r - 2 * a| * (r + 2 * a) := mul_le_mul_of_nonneg_left (by linarith) (abs_nonneg _)
    linarith
  have dr1 := abs_le.1 dr
  have vr : value ((sqrt f x).mul (.fin false 2)) = some (r * 2) := value_mul (by rw [hr]; simp [value, signed]) (by simp [value, signed])
  obtain ⟨w, w1, w2⟩ := step hf hp (B := 41 / 10) vr (by rw [abs_of_nonneg (by linarith)]; linarith) (by norm_num)
  have w3 := abs_le.1 w2
  have dw : |w - 4 * a| ≤ 32 * f.u + 4 * e + 5 * d := by
    rw [abs_le]; constructor <;> linarith [dr1.1, dr1.2, w3.1, w3.2]
  have dw1 := abs_le.1 dw
  have wl : 7 / 4 ≤ w := by linarith [dw1.1]
  have wu : w ≤ 17 / 4 := by linarith [dw1.2]
  change value s = some w at w1
  constructor
  · obtain ⟨q, q1, q2⟩ := step hf hp (B := 17 / 16) (value_mul (x := .fin false (1 / 4)) (X := 1 / 4) (by simp [value, signed]) w1)
      (by rw [abs_of_nonneg (by linarith)]; linarith) (by norm_num)
    refine ⟨q, q1, ?_⟩
    have q3 := abs_le.1 q2
    rw [abs_le]; constructor <;> linarith [dw1.1, dw1.2, q3.1, q3.2]
  · have iw : 1 / w ≤ 4 / 7 := by rw [div_le_div_iff₀ (by linarith) (by norm_num)]; linarith
    have iw0 : 0 < 1 / w := by positivity
    obtain ⟨i, i1, i2⟩ := step hf hp (B := 4 / 7) (value_div (x := .fin false 1) (X := 1) (by simp [value, signed]) w1 (by linarith))
      (by rw [abs_of_pos iw0]; exact iw) (by norm_num)
    refine ⟨i, i1, ?_⟩
    have i3 := abs_le.1 i2
    have di : |1 / w - 1 / (4 * a)| ≤ 32 / 100 * (32 * f.u + 4 * e + 5 * d) := by
      have p0 : 0 < w * (4 * a) := by positivity
      have pl : 25 / 8 ≤ w * (4 * a) := by
        have : 7 / 4 * (19 / 10) ≤ w * (4 * a) := mul_le_mul wl (by linarith) (by norm_num) (by linarith)
        linarith
      rw [show 1 / w - 1 / (4 * a) = -(w - 4 * a) / (w * (4 * a)) by
        have : w ≠ 0 := by linarith
        have : a ≠ 0 := a0.ne'
        field_simp
        ring, abs_div, abs_neg, abs_of_pos p0, div_le_iff₀ p0]
      have : 32 / 100 * (32 * f.u + 4 * e + 5 * d) * (25 / 8) ≤ 32 / 100 * (32 * f.u + 4 * e + 5 * d) * (w * (4 * a)) :=
        mul_le_mul_of_nonneg_left pl (by positivity)
      linarith
    have di1 := abs_le.1 di
    rw [abs_le]; constructor <;> linarith [di1.1, di1.2, i3.1, i3.2]

/-- What is computed from two entries off the diagonal: one of the other components. -/
theorem other {f : Format} (hf : Usual f) (hp : 8 ≤ f.p) {x y : Number} {N I a b d e : ℚ} (d0 : 0 ≤ d) (e0 : 0 ≤ e) (hs : f.u + e + d ≤ 1 / 256) (hx : value x = some N)
    (hN : |N - 4 * (a * b)| ≤ 13 / 4 * f.u + 2 * e) (a0 : 0 < a) (ha : 1 - 9 * f.u - 5 * e - 4 * d ≤ 4 * a ^ 2) (hab : a ^ 2 + b ^ 2 ≤ 1 + d)
    (hy : value y = some I) (hI : |I - 1 / (4 * a)| ≤ 12 * f.u + 13 / 10 * e + 9 / 5 * d) :
    ∃ q, value (Op.mul.eval f x y) = some q ∧ |q - b| ≤ 29 * f.u + 4 * e + 4 * d := by
  have hu := u_pos f
  have al : 19 / 40 ≤ a := by
    by_contra h
    rw [not_le] at h
    have : a * a < 19 / 40 * (19 / 40) := mul_lt_mul'' h h a0.le a0.le
    linarith
  have N1 := abs_le.1 hN
  have I1 := abs_le.1 hI
  have Nb : |N| ≤ 21 / 10 := by
    have h1 := sq_nonneg (a - b)
    have h2 := sq_nonneg (a + b)
    rw [abs_le]; constructor <;> linarith [N1.1, N1.2]
  have i0 : 0 < 1 / (4 * a) := by positivity
  have il : 1 / (4 * a) ≤ 10 / 19 := by rw [div_le_div_iff₀ (by linarith) (by norm_num)]; linarith
  have e1 : |N * (I - 1 / (4 * a))| ≤ 21 / 10 * (12 * f.u + 13 / 10 * e + 9 / 5 * d) := by
    rw [abs_mul]; exact mul_le_mul Nb hI (abs_nonneg _) (by norm_num)
  have e2 : |(N - 4 * (a * b)) * (1 / (4 * a))| ≤ (13 / 4 * f.u + 2 * e) * (10 / 19) := by
    rw [abs_mul, abs_of_pos i0]; exact mul_le_mul hN il i0.le (by positivity)
  have e3 : |N * I - b| ≤ 27 * f.u + 19 / 5 * e + 19 / 5 * d := by
    rw [show N * I - b = N * (I - 1 / (4 * a)) + (N - 4 * (a * b)) * (1 / (4 * a)) by field_simp; ring]
    refine (abs_add_le _ _).trans ?_
    linarith
  have e4 := abs_le.1 e3
  have b1 : |b| ≤ 51 / 50 := by
    by_contra h
    rw [not_le] at h
    have : 51 / 50 * (51 / 50) < |b| * |b| := mul_lt_mul'' h h (by norm_num) (by norm_num)
    rw [abs_mul_abs_self] at this
    linarith [sq_nonneg a]
  have b2 := abs_le.1 b1
  obtain ⟨q, q1, q2⟩ := step hf hp (B := 6 / 5) (value_mul hx hy) (by rw [abs_le]; constructor <;> linarith [e4.1, e4.2, b2.1, b2.2]) (by norm_num)
  refine ⟨q, q1, ?_⟩
  have q3 := abs_le.1 q2
  rw [abs_le]; constructor <;> linarith [e4.1, e4.2, q3.1, q3.2]

/-- All four components, but for the sign. -/
theorem components {f : Format} (hf : Usual f) (hp : 8 ≤ f.p) {x x1 x2 x3 : Number} {A N1 N2 N3 a b c g d e : ℚ} (d0 : 0 ≤ d) (e0 : 0 ≤ e) (hs : f.u + e + d ≤ 1 / 256)
    (hx : value x = some A) (hA : |A - 4 * a ^ 2| ≤ 15 * f.u + 3 * e + 4 * d) (ha : 1 - 9 * f.u - 5 * e - 4 * d ≤ 4 * a ^ 2) (hn : a ^ 2 + b ^ 2 + c ^ 2 + g ^ 2 ≤ 1 + d)
    (h1 : value x1 = some N1) (k1 : |N1 - 4 * (a * b)| ≤ 13 / 4 * f.u + 2 * e) (h2 : value x2 = some N2) (k2 : |N2 - 4 * (a * c)| ≤ 13 / 4 * f.u + 2 * e)
    (h3 : value x3 = some N3) (k3 : |N3 - 4 * (a * g)| ≤ 13 / 4 * f.u + 2 * e) :
    let s := Op.mul.eval f (sqrt f x) (.fin false 2)
    let inv := reciprocal f s
    ∃ σ q0 q1 q2 q3 : ℚ, (σ = 1 ∨ σ = -1) ∧ value (Op.mul.eval f (.fin false (1 / 4)) s) = some q0 ∧ value (Op.mul.eval f x1 inv) = some q1 ∧
      value (Op.mul.eval f x2 inv) = some q2 ∧ value (Op.mul.eval f x3 inv) = some q3 ∧ |q0 - σ * a| ≤ 29 * f.u + 4 * e + 4 * d ∧
      |q1 - σ * b| ≤ 29 * f.u + 4 * e + 4 * d ∧ |q2 - σ * c| ≤ 29 * f.u + 4 * e + 4 * d ∧ |q3 - σ * g| ≤ 29 * f.u + 4 * e + 4 * d := by
  intro s inv
  have hu := u_pos f
  have b0 := sq_nonneg b
  have c0 := sq_nonneg c
  have g0 := sq_nonneg g
  have ne : a ≠ 0 := by
    rintro rfl
    norm_num at ha
    linarith
  obtain ⟨σ, hσ, hpos⟩ : ∃ σ : ℚ, (σ = 1 ∨ σ = -1) ∧ 0 < σ * a := by
    rcases lt_or_gt_of_ne ne with h | h
    · exact ⟨-1, .inr rfl, by linarith⟩
    · exact ⟨1, .inl rfl, by linarith⟩
  have s2 : σ * σ = 1 := by rcases hσ with rfl | rfl <;> norm_num
  have sa : (σ * a) ^ 2 = a ^ 2 := by linear_combination a ^ 2 * s2
  have sb : (σ * b) ^ 2 = b ^ 2 := by linear_combination b ^ 2 * s2
  have sc : (σ * c) ^ 2 = c ^ 2 := by linear_combination c ^ 2 * s2
  have sg : (σ * g) ^ 2 = g ^ 2 := by linear_combination g ^ 2 * s2
  have pb : σ * a * (σ * b) = a * b := by linear_combination a * b * s2
  have pc : σ * a * (σ * c) = a * c := by linear_combination a * c * s2
  have pg : σ * a * (σ * g) = a * g := by linear_combination a * g * s2
  obtain ⟨⟨q0, u0, v0⟩, i, i1, i2⟩ := leading hf hp (a := σ * a) d0 e0 hs hx (by rw [sa]; exact hA) hpos (by rw [sa]; exact ha) (by rw [sa]; linarith)
  obtain ⟨q1, u1, v1⟩ := other hf hp (a := σ * a) (b := σ * b) d0 e0 hs h1 (by rw [pb]; exact k1) hpos (by rw [sa]; exact ha) (by rw [sa, sb]; linarith) i1 i2
  obtain ⟨q2, u2, v2⟩ := other hf hp (a := σ * a) (b := σ * c) d0 e0 hs h2 (by rw [pc]; exact k2) hpos (by rw [sa]; exact ha) (by rw [sa, sc]; linarith) i1 i2
  obtain ⟨q3, u3, v3⟩ := other hf hp (a := σ * a) (b := σ * g) d0 e0 hs h3 (by rw [pg]; exact k3) hpos (by rw [sa]; exact ha) (by rw [sa, sg]; linarith) i1 i2
  exact ⟨σ, q0, q1, q2, q3, hσ, u0, u1, u2, u3, v0, v1, v2, v3⟩

theorem value_sub {x y : Number} {X Y : ℚ} (hx : value x = some X) (hy : value y = some Y) : value (x.sub y) = some (X - Y) := by
  rw [sub_eq_add_neg]
  exact value_add hx (value_negate hy)

theorem pair {f : Format} (hf : Usual f) (hp : 8 ≤ f.p) {x y : Number} {X Y : ℚ} (hx : value x = some X) (hy : value y = some Y) (bx : |X| ≤ 3 / 2) (bY : |Y| ≤ 3 / 2) :
    (∃ w, value (Op.add.eval f x y) = some w ∧ |w - (X + Y)| ≤ 13 / 4 * f.u) ∧ ∃ w, value (Op.sub.eval f x y) = some w ∧ |w - (X - Y)| ≤ 13 / 4 * f.u := by
  have a := abs_le.1 bx
  have b := abs_le.1 bY
  obtain ⟨w, w1, w2⟩ := step hf hp (B := 3) (value_add hx hy) (by rw [abs_le]; constructor <;> linarith [a.1, a.2, b.1, b.2]) (by norm_num)
  obtain ⟨v, v1, v2⟩ := step hf hp (B := 3) (value_sub hx hy) (by rw [abs_le]; constructor <;> linarith [a.1, a.2, b.1, b.2]) (by norm_num)
  exact ⟨⟨w, w1, by linarith⟩, v, v1, by linarith⟩

theorem sum3 {f : Format} (hf : Usual f) (hp : 8 ≤ f.p) {x y z : Number} {X Y Z : ℚ} (hx : value x = some X) (hy : value y = some Y) (hz : value z = some Z)
    (bx : |X| ≤ 3 / 2) (bY : |Y| ≤ 3 / 2) (bz : |Z| ≤ 3 / 2) :
    (∃ t A, value (Op.add.eval f (Op.add.eval f x y) z) = some t ∧ |t - (X + Y + Z)| ≤ 9 * f.u ∧
      value (Op.add.eval f (Op.add.eval f (Op.add.eval f x y) z) (.fin false 1)) = some A ∧ |A - (X + Y + Z + 1)| ≤ 15 * f.u) ∧
    ∃ A, value (Op.add.eval f (Op.sub.eval f (Op.sub.eval f x y) z) (.fin false 1)) = some A ∧ |A - (X - Y - Z + 1)| ≤ 15 * f.u := by
  have hu := u_pos f
  have hu1 := (FloatSegment.small hp).1
  obtain ⟨⟨w, w1, w2⟩, v, v1, v2⟩ := pair hf hp hx hy bx bY
  have one : value (.fin false 1 : Number) = some 1 := by simp [value, signed]
  have a := abs_le.1 bx
  have b := abs_le.1 bY
  have c := abs_le.1 bz
  have wl := abs_le.1 w2
  have vl := abs_le.1 v2
  obtain ⟨t, t1, t2⟩ := step hf hp (B := 23 / 5) (value_add w1 hz) (by rw [abs_le]; constructor <;> linarith [a.1, a.2, b.1, b.2, c.1, c.2, wl.1, wl.2]) (by norm_num)
  obtain ⟨s, s1, s2⟩ := step hf hp (B := 23 / 5) (value_sub v1 hz) (by rw [abs_le]; constructor <;> linarith [a.1, a.2, b.1, b.2, c.1, c.2, vl.1, vl.2]) (by norm_num)
  have tl := abs_le.1 t2
  have sl := abs_le.1 s2
  obtain ⟨A, A1, A2⟩ := step hf hp (B := 28 / 5) (value_add t1 one) (by rw [abs_le]; constructor <;> linarith [a.1, a.2, b.1, b.2, c.1, c.2, wl.1, wl.2, tl.1, tl.2]) (by norm_num)
  obtain ⟨B, B1, B2⟩ := step hf hp (B := 28 / 5) (value_add s1 one) (by rw [abs_le]; constructor <;> linarith [a.1, a.2, b.1, b.2, c.1, c.2, vl.1, vl.2, sl.1, sl.2]) (by norm_num)
  have Al := abs_le.1 A2
  have Bl := abs_le.1 B2
  refine ⟨⟨t, A, t1, ?_, A1, ?_⟩, B, B1, ?_⟩ <;> rw [abs_le] <;> constructor <;> linarith [wl.1, wl.2, vl.1, vl.2, tl.1, tl.2, sl.1, sl.2, Al.1, Al.2, Bl.1, Bl.2]

theorem get_value {R C : ℕ} {m : Mat Number R C} {r c : ℕ} {S : ℚ} (h : (get m r c).bind value = some S) : ∃ x, get m r c = some x ∧ value x = some S := by
  cases hx : get m r c with
  | none => rw [hx] at h; simp at h
  | some x => rw [hx] at h; exact ⟨x, rfl, h⟩

theorem quaternion_near {f : Format} (hf : Usual f) (hp : 8 ≤ f.p) {R C : ℕ} (m : Mat Number R C) (S : Matrix (Fin 3) (Fin 3) ℚ)
    (hm : ∀ r c : Fin 3, (get m r c).bind value = some (S r c)) (p : ℍ[ℚ]) {d e : ℚ} (hS : ∀ r c, |S r c - rotation p r c| ≤ e) (hd : |squaredLength p - 1| ≤ d)
    (hs : f.u + e + d ≤ 1 / 256) :
    ∃ q w, fromRotation f m = some q ∧ Values q w ∧ (Within (29 * f.u + 4 * e + 4 * d) w p ∨ Within (29 * f.u + 4 * e + 4 * d) w (-p)) := by
  have hu := u_pos f
  have e0 : 0 ≤ e := (abs_nonneg _).trans (hS 0 0)
  have d0 : 0 ≤ d := (abs_nonneg _).trans hd
  obtain ⟨x00, g00, v00⟩ := get_value (hm 0 0)
  obtain ⟨x01, g01, v01⟩ := get_value (hm 0 1)
  obtain ⟨x02, g02, v02⟩ := get_value (hm 0 2)
  obtain ⟨x10, g10, v10⟩ := get_value (hm 1 0)
  obtain ⟨x11, g11, v11⟩ := get_value (hm 1 1)
  obtain ⟨x12, g12, v12⟩ := get_value (hm 1 2)
  obtain ⟨x20, g20, v20⟩ := get_value (hm 2 0)
  obtain ⟨x21, g21, v21⟩ := get_value (hm 2 1)
  obtain ⟨x22, g22, v22⟩ := get_value (hm 2 2)
  have s00 := hS 0 0
  have s01 := hS 0 1
  have s02 := hS 0 2
  have s10 := hS 1 0
  have s11 := hS 1 1
  have s12 := hS 1 2
  have s20 := hS 2 0
  have s21 := hS 2 1
  have s22 := hS 2 2
  rw [rotation_00, abs_le] at s00
  rw [rotation_01, abs_le] at s01
  rw [rotation_02, abs_le] at s02
  rw [rotation_10, abs_le] at s10
  rw [rotation_11, abs_le] at s11
  rw [rotation_12, abs_le] at s12
  rw [rotation_20, abs_le] at s20
  rw [rotation_21, abs_le] at s21
  rw [rotation_22, abs_le] at s22
  rw [squaredLength, abs_le] at hd
  obtain ⟨s, x, y, z⟩ := p
  simp only at s00 s01 s02 s10 s11 s12 s20 s21 s22 hd
  generalize S 0 0 = S00 at *
  generalize S 0 1 = S01 at *
  generalize S 0 2 = S02 at *
  generalize S 1 0 = S10 at *
  generalize S 1 1 = S11 at *
  generalize S 1 2 = S12 at *
  generalize S 2 0 = S20 at *
  generalize S 2 1 = S21 at *
  generalize S 2 2 = S22 at *
  obtain ⟨s00, s00'⟩ := s00
  obtain ⟨s01, s01'⟩ := s01
  obtain ⟨s02, s02'⟩ := s02
  obtain ⟨s10, s10'⟩ := s10
  obtain ⟨s11, s11'⟩ := s11
  obtain ⟨s12, s12'⟩ := s12
  obtain ⟨s20, s20'⟩ := s20
  obtain ⟨s21, s21'⟩ := s21
  obtain ⟨s22, s22'⟩ := s22
  obtain ⟨hd, hd'⟩ := hd
  have ps := sq_nonneg s
  have px := sq_nonneg x
  have py := sq_nonneg y
  have pz := sq_nonneg z
  have sq : ∀ a b : ℚ, 0 ≤ a ^ 2 - 2 * (a * b) + b ^ 2 ∧ 0 ≤ a ^ 2 + 2 * (a * b) + b ^ 2 := fun a b => ⟨by linarith [sq_nonneg (a - b)], by linarith [sq_nonneg (a + b)]⟩
  obtain ⟨xy, xy'⟩ := sq x y
  obtain ⟨xz, xz'⟩ := sq x z
  obtain ⟨yz, yz'⟩ := sq y z
  obtain ⟨sx, sx'⟩ := sq s x
  obtain ⟨sy, sy'⟩ := sq s y
  obtain ⟨sz, sz'⟩ := sq s z
  have b00 : |S00| ≤ 3 / 2 := by rw [abs_le]; constructor <;> linarith
  have b11 : |S11| ≤ 3 / 2 := by rw [abs_le]; constructor <;> linarith
  have b22 : |S22| ≤ 3 / 2 := by rw [abs_le]; constructor <;> linarith
  have b01 : |S01| ≤ 3 / 2 := by rw [abs_le]; constructor <;> linarith
  have b02 : |S02| ≤ 3 / 2 := by rw [abs_le]; constructor <;> linarith
  have b10 : |S10| ≤ 3 / 2 := by rw [abs_le]; constructor <;> linarith
  have b12 : |S12| ≤ 3 / 2 := by rw [abs_le]; constructor <;> linarith
  have b20 : |S20| ≤ 3 / 2 := by rw [abs_le]; constructor <;> linarith
  have b21 : |S21| ≤ 3 / 2 := by rw [abs_le]; constructor <;> linarith
  obtain ⟨⟨a01, p01, q01⟩, -⟩ := pair hf hp v01 v10 b01 b10
  obtain ⟨⟨a02, p02, q02⟩, d02, p02', q02'⟩ := pair hf hp v02 v20 b02 b20
  obtain ⟨⟨a21, p21, q21⟩, d21, p21', q21'⟩ := pair hf hp v21 v12 b21 b12
  obtain ⟨-, d10, p10', q10'⟩ := pair hf hp v10 v01 b10 b01
  obtain ⟨⟨t, A, t1, t2, A1, A2⟩, -⟩ := sum3 hf hp v00 v11 v22 b00 b11 b22
  obtain ⟨-, Ax, Ax1, Ax2⟩ := sum3 hf hp v00 v11 v22 b00 b11 b22
  obtain ⟨-, Ay, Ay1, Ay2⟩ := sum3 hf hp v11 v00 v22 b11 b00 b22
  obtain ⟨-, Az, Az1, Az2⟩ := sum3 hf hp v22 v00 v11 b22 b00 b11
  rw [abs_le] at q01 q02 q02' q21 q21' q10' t2 A2 Ax2 Ay2 Az2
  obtain ⟨q01, r01⟩ := q01
  obtain ⟨q02, r02⟩ := q02
  obtain ⟨q02', r02'⟩ := q02'
  obtain ⟨q21, r21⟩ := q21
  obtain ⟨q21', r21'⟩ := q21'
  obtain ⟨q10', r10'⟩ := q10'
  obtain ⟨t2, t2'⟩ := t2
  obtain ⟨A2, A2'⟩ := A2
  obtain ⟨Ax2, Ax2'⟩ := Ax2
  obtain ⟨Ay2, Ay2'⟩ := Ay2
  obtain ⟨Az2, Az2'⟩ := Az2
  have zero : value (.fin false 0 : Number) = some 0 := by simp [value, signed]
  have lt := FloatBox.less_values zero t1
  have l01 := FloatBox.less_values v11 v00
  have l02 := FloatBox.less_values v22 v00
  have l12 := FloatBox.less_values v22 v11
  have n21 : |d21 - 4 * (s * x)| ≤ 13 / 4 * f.u + 2 * e := by rw [abs_le]; constructor <;> linarith
  have n02 : |d02 - 4 * (s * y)| ≤ 13 / 4 * f.u + 2 * e := by rw [abs_le]; constructor <;> linarith
  have n10 : |d10 - 4 * (s * z)| ≤ 13 / 4 * f.u + 2 * e := by rw [abs_le]; constructor <;> linarith
  have m01 : |a01 - 4 * (x * y)| ≤ 13 / 4 * f.u + 2 * e := by rw [abs_le]; constructor <;> linarith
  have m02 : |a02 - 4 * (x * z)| ≤ 13 / 4 * f.u + 2 * e := by rw [abs_le]; constructor <;> linarith
  have m21 : |a21 - 4 * (y * z)| ≤ 13 / 4 * f.u + 2 * e := by rw [abs_le]; constructor <;> linarith
  have done : ∀ {X W Y Z : Number} {σ q0 q1 q2 q3 : ℚ}, (σ = 1 ∨ σ = -1) → value X = some q0 → value W = some q1 → value Y = some q2 → value Z = some q3 →
      |q0 - σ * s| ≤ 29 * f.u + 4 * e + 4 * d → |q1 - σ * x| ≤ 29 * f.u + 4 * e + 4 * d → |q2 - σ * y| ≤ 29 * f.u + 4 * e + 4 * d →
      |q3 - σ * z| ≤ 29 * f.u + 4 * e + 4 * d →
      ∃ w : ℍ[ℚ], Values ⟨X, .three W Y Z⟩ w ∧ (Within (29 * f.u + 4 * e + 4 * d) w ⟨s, x, y, z⟩ ∨ Within (29 * f.u + 4 * e + 4 * d) w (-⟨s, x, y, z⟩)) := by
    intro X W Y Z σ q0 q1 q2 q3 hσ u0 u1 u2 u3 w0 w1 w2 w3
    refine ⟨⟨q0, q1, q2, q3⟩, ⟨u0, Props.FloatCross.are_three u1 u2 u3⟩, ?_⟩
    rcases hσ with rfl | rfl
    · simp only [one_mul] at w0 w1 w2 w3
      exact .inl ⟨w0, w1, w2, w3⟩
    · simp only [neg_mul, one_mul] at w0 w1 w2 w3
      exact .inr ⟨w0, w1, w2, w3⟩
  unfold fromRotation
  rw [show get m 0 0 = some x00 from g00, show get m 0 1 = some x01 from g01, show get m 0 2 = some x02 from g02, show get m 1 0 = some x10 from g10,
    show get m 1 1 = some x11 from g11, show get m 1 2 = some x12 from g12, show get m 2 0 = some x20 from g20, show get m 2 1 = some x21 from g21,
    show get m 2 2 = some x22 from g22]
  simp only [Option.bind_eq_bind, Option.bind_some, Bool.and_eq_true, lt, l01, l02, l12]
  split_ifs with h1 h2 h3
  · obtain ⟨σ, q0, q1, q2, q3, hσ, u0, u1, u2, u3, w0, w1, w2, w3⟩ := components hf hp (a := s) (b := x) (c := y) (g := z) d0 e0 hs A1
      (by rw [abs_le]; constructor <;> linarith) (by linarith) (by linarith) p21' n21 p02' n02 p10' n10
    obtain ⟨w, hw⟩ := done hσ u0 u1 u2 u3 w0 w1 w2 w3
    exact ⟨_, w, rfl, hw⟩
  · obtain ⟨σ, q0, q1, q2, q3, hσ, u0, u1, u2, u3, w0, w1, w2, w3⟩ := components hf hp (a := x) (b := s) (c := y) (g := z) d0 e0 hs Ax1
      (by rw [abs_le]; constructor <;> linarith) (by linarith [h2.1, h2.2]) (by linarith) p21' (by rw [mul_comm x]; exact n21) p01 m01 p02 m02
    obtain ⟨w, hw⟩ := done hσ u1 u0 u2 u3 w1 w0 w2 w3
    exact ⟨_, w, rfl, hw⟩
  · have h2' : S00 ≤ S11 ∨ S00 ≤ S22 := by
      by_contra h
      rw [not_or, not_le, not_le] at h
      exact h2 h
    obtain ⟨σ, q0, q1, q2, q3, hσ, u0, u1, u2, u3, w0, w1, w2, w3⟩ := components hf hp (a := y) (b := s) (c := x) (g := z) d0 e0 hs Ay1
      (by rw [abs_le]; constructor <;> linarith) (by rcases h2' with h2' | h2' <;> linarith) (by linarith) p02' (by rw [mul_comm y]; exact n02) p01
      (by rw [mul_comm y]; exact m01) p21 m21
    obtain ⟨w, hw⟩ := done hσ u1 u2 u0 u3 w1 w2 w0 w3
    exact ⟨_, w, rfl, hw⟩
  · have h2' : S00 ≤ S11 ∨ S00 ≤ S22 := by
      by_contra h
      rw [not_or, not_le, not_le] at h
      exact h2 h
    obtain ⟨σ, q0, q1, q2, q3, hσ, u0, u1, u2, u3, w0, w1, w2, w3⟩ := components hf hp (a := z) (b := s) (c := x) (g := y) d0 e0 hs Az1
      (by rw [abs_le]; constructor <;> linarith) (by rcases h2' with h2' | h2' <;> linarith) (by linarith) p10' (by rw [mul_comm z]; exact n10) p02
      (by rw [mul_comm z]; exact m02) p21 (by rw [mul_comm z]; exact m21)
    obtain ⟨w, hw⟩ := done hσ u1 u2 u3 u0 w1 w2 w3 w0
    exact ⟨_, w, rfl, hw⟩

/-! ## There, and back -/

theorem magnitudes_le (p : ℍ[ℚ]) (r c : Fin 3) : rotationMagnitudes p r c ≤ 1 + 2 * squaredLength p := by
  have ps := sq_nonneg p.re
  have px := sq_nonneg p.imI
  have py := sq_nonneg p.imJ
  have pz := sq_nonneg p.imK
  have am : ∀ a b : ℚ, 2 * |a * b| ≤ a ^ 2 + b ^ 2 := fun a b => by
    have := sq_nonneg (|a| - |b|)
    rw [abs_mul]
    have h1 := sq_abs a
    have h2 := sq_abs b
    linarith
  have e : ∀ a : ℚ, |a * a| = a ^ 2 := fun a => by rw [abs_mul_self, sq]
  unfold squaredLength
  fin_cases r <;> fin_cases c
  · change rotationMagnitudes p 0 0 ≤ _; rw [magnitudes_00, e, e]; linarith
  · change rotationMagnitudes p 0 1 ≤ _; rw [magnitudes_01]; linarith [am p.imI p.imJ, am p.re p.imK]
  · change rotationMagnitudes p 0 2 ≤ _; rw [magnitudes_02]; linarith [am p.imI p.imK, am p.re p.imJ]
  · change rotationMagnitudes p 1 0 ≤ _; rw [magnitudes_10]; linarith [am p.imI p.imJ, am p.re p.imK]
  · change rotationMagnitudes p 1 1 ≤ _; rw [magnitudes_11, e, e]; linarith
  · change rotationMagnitudes p 1 2 ≤ _; rw [magnitudes_12]; linarith [am p.imJ p.imK, am p.re p.imI]
  · change rotationMagnitudes p 2 0 ≤ _; rw [magnitudes_20]; linarith [am p.imI p.imK, am p.re p.imJ]
  · change rotationMagnitudes p 2 1 ≤ _; rw [magnitudes_21]; linarith [am p.imJ p.imK, am p.re p.imI]
  · change rotationMagnitudes p 2 2 ≤ _; rw [magnitudes_22, e, e]; linarith

/-- If the length is about one, then the entries are within fifteen units of round-off. -/
theorem matrix_close {f : Format} (hf : Usual f) (hp : 14 ≤ f.p) (k : Choices) {R C : ℕ} (hs : Shape R C) {q : Model.FloatQuat.Quaternion} {p : ℍ[ℚ]} (hq : Values q p)
    (hn : squaredLength p ≤ 513 / 512) :
    ∃ (m : Mat Number R C) (S : Matrix (Fin 3) (Fin 3) ℚ), fromQuaternion f k R C q = some m ∧ (∀ r c : Fin 3, (get m r c).bind value = some (S r c)) ∧
      ∀ r c, |S r c - rotation p r c| ≤ 15 * f.u := by
  have hu := u_pos f
  have ht := tiny_pos f
  have hu1 : f.u ≤ 1 / 16384 := by
    unfold Format.u
    have : (2 : ℚ) ^ 14 ≤ 2 ^ f.p := pow_le_pow_right₀ (by norm_num) hp
    rw [div_le_div_iff₀ (by positivity) (by norm_num)]
    linarith
  have t : f.tiny ≤ f.u * (1 / 4) := by
    rw [FloatLength.tiny_eq]
    exact mul_le_mul_of_nonneg_left (FloatLength.emin_le hf) hu.le
  have g : (16 : ℚ) ≤ f.greatest := by
    refine le_trans ?_ hf.wide
    have : (2 : ℚ) ^ (4 : ℤ) ≤ 2 ^ (-f.emin) := zpow_le_zpow_right₀ (by norm_num) (by have := hf.least; omega)
    exact le_trans (by norm_num) this
  have b4 : (1 + f.u) ^ 4 ≤ 1 + 81 / 20 * f.u := by
    have u2 : f.u * f.u ≤ f.u * (1 / 16384) := mul_le_mul_of_nonneg_left hu1 hu.le
    have u3 : f.u * f.u * f.u ≤ f.u * (1 / 16384) * 1 := mul_le_mul u2 (by linarith) hu.le (by positivity)
    have u4 : f.u * f.u * f.u * f.u ≤ f.u * (1 / 16384) * 1 * 1 := mul_le_mul u3 (by linarith) hu.le (by positivity)
    linarith
  have p0 := one_le f 4
  obtain ⟨m, h1, h2, -⟩ := matrix_near f k hs hq (by
    intro r c
    have h := magnitudes_le p r c
    have : (1 + f.u) ^ 4 * (rotationMagnitudes p r c + 8 * f.tiny) ≤ 2 * 6 := by
      refine (mul_le_mul_of_nonneg_left (show rotationMagnitudes p r c + 8 * f.tiny ≤ 6 by linarith) (by positivity)).trans ?_
      exact mul_le_mul_of_nonneg_right (by linarith) (by norm_num)
    linarith)
  choose x gx nx using h2
  choose S vx _ _ hS using nx
  refine ⟨m, S, h1, fun r c => by rw [gx r c]; exact vx r c, fun r c => (hS r c).trans ?_⟩
  have h := magnitudes_le p r c
  have c1 : ((1 + f.u) ^ 4 - 1) * rotationMagnitudes p r c ≤ 81 / 20 * f.u * (7 / 2) :=
    (mul_le_mul_of_nonneg_left (show rotationMagnitudes p r c ≤ 31 / 10 by linarith) (by linarith)).trans (mul_le_mul (by linarith) (by norm_num) (by norm_num) (by positivity))
  have c1' : ((1 + f.u) ^ 4 - 1) * rotationMagnitudes p r c ≤ 81 / 20 * f.u * (31 / 10) :=
    (mul_le_mul_of_nonneg_left (show rotationMagnitudes p r c ≤ 31 / 10 by linarith) (by linarith)).trans (mul_le_mul_of_nonneg_right (by linarith) (by norm_num))
  have c2 : (1 + f.u) ^ 4 * (8 * f.tiny) ≤ 101 / 100 * (8 * (f.u * (1 / 4))) := mul_le_mul (by linarith) (by linarith) (by positivity) (by norm_num)
  linarith

theorem product_close {a b A B e : ℚ} (ha : |a - A| ≤ e) (hb : |b - B| ≤ e) (hA : |A| ≤ 101 / 100) (hB : |B| ≤ 101 / 100) (he : e ≤ 1 / 100) : |a * b - A * B| ≤ 203 / 100 * e := by
  have e0 := (abs_nonneg _).trans ha
  have hb' : |b| ≤ 102 / 100 := by
    have := abs_add_le B (b - B)
    rw [add_sub_cancel] at this
    linarith
  rw [show a * b - A * B = (a - A) * b + A * (b - B) by ring]
  refine (abs_add_le _ _).trans ?_
  rw [abs_mul, abs_mul]
  have h1 : |a - A| * |b| ≤ e * (102 / 100) := mul_le_mul ha hb' (abs_nonneg _) e0
  have h2 : |A| * |b - B| ≤ 101 / 100 * e := mul_le_mul hA hb (abs_nonneg _) (by norm_num)
  linarith

/-- The entries of a matrix of a rotation are at most about one. -/
theorem rotation_le (p : ℍ[ℚ]) {d : ℚ} (hd : |squaredLength p - 1| ≤ d) (h : d ≤ 1 / 512) (r c : Fin 3) : |rotation p r c| ≤ 101 / 100 := by
  rw [squaredLength, abs_le] at hd
  obtain ⟨hd, hd'⟩ := hd
  have ps := sq_nonneg p.re
  have px := sq_nonneg p.imI
  have py := sq_nonneg p.imJ
  have pz := sq_nonneg p.imK
  have sq : ∀ a b : ℚ, 0 ≤ a ^ 2 - 2 * (a * b) + b ^ 2 ∧ 0 ≤ a ^ 2 + 2 * (a * b) + b ^ 2 := fun a b => ⟨by linarith [sq_nonneg (a - b)], by linarith [sq_nonneg (a + b)]⟩
  obtain ⟨xy, xy'⟩ := sq p.imI p.imJ
  obtain ⟨xz, xz'⟩ := sq p.imI p.imK
  obtain ⟨yz, yz'⟩ := sq p.imJ p.imK
  obtain ⟨sx, sx'⟩ := sq p.re p.imI
  obtain ⟨sy, sy'⟩ := sq p.re p.imJ
  obtain ⟨sz, sz'⟩ := sq p.re p.imK
  rw [abs_le]
  fin_cases r <;> fin_cases c
  · change _ ≤ rotation p 0 0 ∧ rotation p 0 0 ≤ _; rw [rotation_00]; constructor <;> linarith
  · change _ ≤ rotation p 0 1 ∧ rotation p 0 1 ≤ _; rw [rotation_01]; constructor <;> linarith
  · change _ ≤ rotation p 0 2 ∧ rotation p 0 2 ≤ _; rw [rotation_02]; constructor <;> linarith
  · change _ ≤ rotation p 1 0 ∧ rotation p 1 0 ≤ _; rw [rotation_10]; constructor <;> linarith
  · change _ ≤ rotation p 1 1 ∧ rotation p 1 1 ≤ _; rw [rotation_11]; constructor <;> linarith
  · change _ ≤ rotation p 1 2 ∧ rotation p 1 2 ≤ _; rw [rotation_12]; constructor <;> linarith
  · change _ ≤ rotation p 2 0 ∧ rotation p 2 0 ≤ _; rw [rotation_20]; constructor <;> linarith
  · change _ ≤ rotation p 2 1 ∧ rotation p 2 1 ≤ _; rw [rotation_21]; constructor <;> linarith
  · change _ ≤ rotation p 2 2 ∧ rotation p 2 2 ≤ _; rw [rotation_22]; constructor <;> linarith

/-- The exact matrix is orthogonal but for what the length differs from one. -/
theorem rotation_orthogonal (p : ℍ[ℚ]) {d : ℚ} (hd : |squaredLength p - 1| ≤ d) (h : d ≤ 1 / 512) (i j : Fin 3) :
    |rotation p 0 i * rotation p 0 j + rotation p 1 i * rotation p 1 j + rotation p 2 i * rotation p 2 j - (if i = j then 1 else 0)| ≤ 5 * d := by
  have d0 := (abs_nonneg _).trans hd
  have core : ∀ K : ℚ, |K| ≤ squaredLength p → |4 * (1 - squaredLength p) * K| ≤ 5 * d := by
    intro K hK
    rw [abs_mul, abs_mul, abs_sub_comm, abs_of_nonneg (show (0 : ℚ) ≤ 4 by norm_num)]
    have : 4 * |squaredLength p - 1| * |K| ≤ 4 * d * (5 / 4) := mul_le_mul (by linarith) (by linarith [(abs_le.1 hd).2]) (abs_nonneg _) (by linarith)
    linarith
  have ps := sq_nonneg p.re
  have px := sq_nonneg p.imI
  have py := sq_nonneg p.imJ
  have pz := sq_nonneg p.imK
  have sq : ∀ a b : ℚ, 0 ≤ a ^ 2 - 2 * (a * b) + b ^ 2 ∧ 0 ≤ a ^ 2 + 2 * (a * b) + b ^ 2 := fun a b => ⟨by linarith [sq_nonneg (a - b)], by linarith [sq_nonneg (a + b)]⟩
  obtain ⟨xy, xy'⟩ := sq p.imI p.imJ
  obtain ⟨xz, xz'⟩ := sq p.imI p.imK
  obtain ⟨yz, yz'⟩ := sq p.imJ p.imK
  have k00 := core (-(p.imJ ^ 2 + p.imK ^ 2)) (by simp only [squaredLength]; rw [abs_le]; constructor <;> linarith)
  have k11 := core (-(p.imI ^ 2 + p.imK ^ 2)) (by simp only [squaredLength]; rw [abs_le]; constructor <;> linarith)
  have k22 := core (-(p.imI ^ 2 + p.imJ ^ 2)) (by simp only [squaredLength]; rw [abs_le]; constructor <;> linarith)
  have k01 := core (p.imI * p.imJ) (by simp only [squaredLength]; rw [abs_le]; constructor <;> linarith)
  have k02 := core (p.imI * p.imK) (by simp only [squaredLength]; rw [abs_le]; constructor <;> linarith)
  have k12 := core (p.imJ * p.imK) (by simp only [squaredLength]; rw [abs_le]; constructor <;> linarith)
  simp only [squaredLength] at k00 k11 k22 k01 k02 k12
  match i, j with
  | 0, 0 => rw [if_pos rfl, rotation_00, rotation_10, rotation_20]; refine le_of_eq_of_le (congrArg abs ?_) k00; ring
  | 1, 1 => rw [if_pos rfl, rotation_01, rotation_11, rotation_21]; refine le_of_eq_of_le (congrArg abs ?_) k11; ring
  | 2, 2 => rw [if_pos rfl, rotation_02, rotation_12, rotation_22]; refine le_of_eq_of_le (congrArg abs ?_) k22; ring
  | 0, 1 => rw [if_neg (by decide), rotation_00, rotation_10, rotation_20, rotation_01, rotation_11, rotation_21]; refine le_of_eq_of_le (congrArg abs ?_) k01; ring
  | 1, 0 => rw [if_neg (by decide), rotation_00, rotation_10, rotation_20, rotation_01, rotation_11, rotation_21]; refine le_of_eq_of_le (congrArg abs ?_) k01; ring
  | 0, 2 => rw [if_neg (by decide), rotation_00, rotation_10, rotation_20, rotation_02, rotation_12, rotation_22]; refine le_of_eq_of_le (congrArg abs ?_) k02; ring
  | 2, 0 => rw [if_neg (by decide), rotation_00, rotation_10, rotation_20, rotation_02, rotation_12, rotation_22]; refine le_of_eq_of_le (congrArg abs ?_) k02; ring
  | 1, 2 => rw [if_neg (by decide), rotation_01, rotation_11, rotation_21, rotation_02, rotation_12, rotation_22]; refine le_of_eq_of_le (congrArg abs ?_) k12; ring
  | 2, 1 => rw [if_neg (by decide), rotation_01, rotation_11, rotation_21, rotation_02, rotation_12, rotation_22]; refine le_of_eq_of_le (congrArg abs ?_) k12; ring

end Verif.Proofs.FloatRotation
