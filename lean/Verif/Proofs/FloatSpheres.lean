import Verif.Model.FloatSpheres
import Verif.Proofs.FloatSphere
import Verif.Proofs.FloatSegment
/-! # Lemmas for C189 -/
namespace Verif.Proofs.FloatSpheres
open Verif.Spec.IeeeArith Verif.Spec.FloatFormat Verif.Model.VectorStore Verif.Model.FloatVector Verif.Model.FloatSpheres
open Verif.Proofs.FloatVector Verif.Proofs.FloatSphere Verif.Proofs.FloatBox

theorem High.mono {t : Number} {q q' : ℚ} (h : High t q) (hq : q ≤ q') : High t q' := by
  obtain ⟨X, h1, h2, h3⟩ := h
  exact ⟨X, h1, h2, h3.trans hq⟩

theorem low_sq {f : Format} (hp : 1 ≤ f.p) (hg : 0 ≤ f.greatest) {r : Number} {R : ℚ} (h : value r = some R) (c : Bool) : Low (square f r c) ((1 - f.u) * R ^ 2 - f.tiny) := by
  cases c
  · exact low_radius hp hg h
  · refine (low_square h).mono ?_
    have := mul_nonneg (u_pos f).le (sq_nonneg R)
    have := tiny_pos f
    linarith

theorem high_sq {f : Format} (hp : 1 ≤ f.p) {r : Number} {R : ℚ} (h : value r = some R) (hg : (1 + f.u) * R ^ 2 + f.tiny ≤ f.greatest) (c : Bool) :
    High (square f r c) ((1 + f.u) * R ^ 2 + f.tiny) := by
  cases c
  · exact high_radius hp h hg
  · refine High.mono (high_square h) ?_
    have := mul_nonneg (u_pos f).le (sq_nonneg R)
    have := tiny_pos f
    linarith

/-- The sum of two squares. -/
theorem low_sum {f : Format} (hp : 1 ≤ f.p) (hg : 0 ≤ f.greatest) {r s : Number} {R S : ℚ} (hr : value r = some R) (hs : value s = some S) (c : Bool × Bool) :
    Low (Op.add.eval f (square f r c.1) (square f s c.2)) ((1 - f.u) * ((1 - f.u) * (R ^ 2 + S ^ 2) - 2 * f.tiny) - f.tiny) := by
  have := ((low_sq hp hg hr c.1).add (low_sq hp hg hs c.2)).round hp hg
  refine this.mono (le_of_eq ?_)
  ring

theorem high_sum {f : Format} (hp : 1 ≤ f.p) {r s : Number} {R S : ℚ} (hr : value r = some R) (hs : value s = some S) (c : Bool × Bool)
    (hg : (1 + f.u) * ((1 + f.u) * (R ^ 2 + S ^ 2) + 2 * f.tiny) + f.tiny ≤ f.greatest) :
    High (Op.add.eval f (square f r c.1) (square f s c.2)) ((1 + f.u) * ((1 + f.u) * (R ^ 2 + S ^ 2) + 2 * f.tiny) + f.tiny) := by
  have hu := u_pos f
  have ht := tiny_pos f
  have r0 : 0 ≤ (1 + f.u) * R ^ 2 := by positivity
  have s0 : 0 ≤ (1 + f.u) * S ^ 2 := by positivity
  have all : 0 ≤ f.u * ((1 + f.u) * (R ^ 2 + S ^ 2) + 2 * f.tiny) := by positivity
  have h1 := high_sq hp hr (by linarith) c.1
  have h2 := high_sq hp hs (by linarith) c.2
  have := (h1.add h2).round hp (by linarith)
  exact High.mono this (le_of_eq (by ring))

theorem add_swap (f : Format) (x y : Number) : Op.add.eval f x y = Op.add.eval f y x := by
  show f.round (x.add y) = f.round (y.add x)
  congr 1
  cases x with
  | nan => cases y <;> rfl
  | inf s =>
    cases y with
    | nan => rfl
    | inf t => cases s <;> cases t <;> rfl
    | fin t b => rfl
  | fin s a =>
    cases y with
    | nan => rfl
    | inf t => rfl
    | fin t b => simp [Number.add, add_comm, Bool.and_comm]

theorem dist_swap (f : Format) (k : Store Bool 3) (v w : Store Number 3) : Model.FloatLength.distanceSquared f k v w = Model.FloatLength.distanceSquared f k w v := by
  cases v with
  | three a b c =>
    cases w with
    | three x y z =>
      cases k with
      | three k1 k2 k3 =>
        simp only [dist3]
        rw [product_swap f x a, product_swap f y b, product_swap f z c]

theorem dist_self {f : Format} (hp : 1 ≤ f.p) (hg : 0 ≤ f.greatest) (k : Store Bool 3) {v : Store Number 3} {x y z : ℚ} (h : Point f v x y z) :
    Model.FloatLength.distanceSquared f k v v = some (.fin false 0) := by
  obtain ⟨a, b, c, rfl, -, -, -, va, vb, vc⟩ := h.elim
  cases k with
  | three k1 k2 k3 =>
    simp only [dist3, product_self hp hg _ va, product_self hp hg _ vb, product_self hp hg _ vc]
    rw [zero_add' hp hg, zero_add' hp hg]

/-- Adding zero to the square of a radius gives the rounded square. -/
theorem zero_square {f : Format} (hp : 1 ≤ f.p) {r : Number} {R : ℚ} (h : value r = some R) (hg : (1 + f.u) * R ^ 2 + f.tiny ≤ f.greatest) (e : Bool) :
    ∃ X, value (square f r false) = some X ∧ value (Op.add.eval f (.fin false 0) (square f r e)) = some X := by
  obtain ⟨X, hX, X0, X1⟩ := high_radius hp h hg
  have hx : value (f.round (r.mul r)) = some X := hX
  have eX : X = rd f (R * R) := FloatRay.value_of_round (value_mul h h) hx
  have has : f.Has (f.round (r.mul r)) := Approx.round_is hp fun s a => square_mag s a
  have fix : rd f X = X := (FloatSegment.rd_has hp has hx).1
  have z : value (.fin false 0) = some (0 : ℚ) := by simp [value, signed]
  refine ⟨X, hX, ?_⟩
  have le : |X| ≤ f.greatest := by rw [abs_of_nonneg X0]; exact X1.trans hg
  cases e
  · have s := value_add z hx
    rw [zero_add] at s
    have := value_round f s (by rw [fix]; exact le)
    rw [fix] at this
    exact this
  · have s := value_add z (value_mul h h)
    rw [zero_add] at s
    have := value_round f s (by rw [← eX]; exact le)
    rw [← eX] at this
    exact this

theorem not_less {x y : Number} (h : Model.Kahan.atLeast x y = true) : Model.Kahan.less x y = false := by
  cases x <;> cases y <;> simp_all [Model.Kahan.atLeast]

theorem square_int {f : Format} (hp : 1 ≤ f.p) (he : f.emin - f.p + 1 ≤ 0) (hg : 2 ^ f.p ≤ f.greatest) (c : Bool) {r : Number} {R : ℤ} (h : value r = some (R : ℚ))
    (hR : R ^ 2 ≤ 2 ^ f.p) : value (square f r c) = some ((R ^ 2 : ℤ) : ℚ) := by
  have e : value (r.mul r) = some ((R ^ 2 : ℤ) : ℚ) := by rw [value_mul h h]; congr 1; push_cast; ring
  cases c
  · exact round_int hp he hg e (by rw [abs_of_nonneg (sq_nonneg R)]; exact hR)
  · exact e

theorem dist_int {f : Format} (hp : 1 ≤ f.p) (he : f.emin - f.p + 1 ≤ 0) (hg : 2 ^ f.p ≤ f.greatest) (k : Store Bool 3) {v w : Store Number 3} {C P : Fin 3 → ℤ}
    (hv : Point f v (C 0) (C 1) (C 2)) (hw : Point f w (P 0) (P 1) (P 2)) (h : ∑ i, (P i - C i) ^ 2 ≤ 2 ^ f.p) :
    ∃ d, Model.FloatLength.distanceSquared f k v w = some d ∧ value d = some ((∑ i, (P i - C i) ^ 2 : ℤ) : ℚ) := by
  obtain ⟨a, b, d, rfl, -, -, -, va, vb, vc⟩ := hv.elim
  obtain ⟨a', b', d', rfl, -, -, -, va', vb', vc'⟩ := hw.elim
  rw [Fin.sum_univ_three] at h ⊢
  cases k with
  | three k1 k2 k3 =>
    have A0 := sq_nonneg (P 0 - C 0)
    have B0 := sq_nonneg (P 1 - C 1)
    have D0 := sq_nonneg (P 2 - C 2)
    have s1 := product_int hp he hg k1 va' va (by linarith)
    have s2 := product_int hp he hg k2 vb' vb (by linarith)
    have s3 := product_int hp he hg k3 vc' vc (by linarith)
    have s4 := add_int hp he hg s1 s2 (by rw [abs_of_nonneg (by linarith)]; linarith)
    exact ⟨_, dist3 _ _ _ _ _ _ _ _ _ _, add_int hp he hg s4 s3 (by rw [abs_of_nonneg (by linarith)]; linarith)⟩

end Verif.Proofs.FloatSpheres
