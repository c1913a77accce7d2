import Verif.Spec.NormalRounding
import Verif.Model.FloatNormal
import Verif.Proofs.FloatWeights
import Verif.Props.FloatPlane
/-! # Lemmas for C188 -/
namespace Verif.Proofs.FloatNormal
open Verif.Spec.IeeeArith Verif.Spec.FloatFormat Verif.Spec.FloatSqrt Verif.Spec.TriangleRounding Verif.Spec.Weights Verif.Spec.NormalRounding
open Verif.Model.VectorStore hiding construct
open Verif.Model.FloatVector Verif.Model.FloatProducts Verif.Model.FloatWeights Verif.Model.FloatNormal
open Verif.Proofs.FloatVector Verif.Proofs.FloatProducts Verif.Proofs.FloatError Verif.Proofs.FloatPlane Verif.Proofs.FloatRay Verif.Proofs.FloatTriangle Verif.Proofs.FloatWeights
open Verif.Props.FloatCross (are3)

theorem u_small {f : Format} (h : 12 ≤ f.p) : f.u ≤ 1 / 4096 := by
  unfold Format.u
  have : (2 : ℚ) ^ 12 ≤ 2 ^ f.p := pow_le_pow_right₀ (by norm_num) h
  rw [div_le_div_iff₀ (by positivity) (by norm_num)]
  linarith

theorem square_change {N E : Fin 3 → ℚ} {σ ρ G : ℚ} (hE : ∀ i, |E i| ≤ σ) (hG : G = N 0 ^ 2 + N 1 ^ 2 + N 2 ^ 2) (r0 : 0 ≤ ρ) (r1 : ρ ≤ 1 / 32) (hs : σ ^ 2 ≤ ρ ^ 2 * G) :
    |(N 0 + E 0) ^ 2 + (N 1 + E 1) ^ 2 + (N 2 + E 2) ^ 2 - G| ≤ 5 * ρ * G := by
  have G0 : 0 ≤ G := by rw [hG]; positivity
  have sq : ∀ i, E i ^ 2 ≤ ρ ^ 2 * G := fun i => (sq_le_sq' (abs_le.1 (hE i)).1 (abs_le.1 (hE i)).2).trans hs
  have s0 := sq 0
  have s1 := sq 1
  have s2 := sq 2
  set F := E 0 ^ 2 + E 1 ^ 2 + E 2 ^ 2 with hF
  have F0 : 0 ≤ F := by positivity
  have cs : (N 0 * E 0 + N 1 * E 1 + N 2 * E 2) ^ 2 ≤ G * F := by
    rw [hG, hF]
    nlinarith [sq_nonneg (N 0 * E 1 - N 1 * E 0), sq_nonneg (N 0 * E 2 - N 2 * E 0), sq_nonneg (N 1 * E 2 - N 2 * E 1)]
  have F3 : F ≤ 3 * (ρ ^ 2 * G) := by linarith
  have GF : G * F ≤ G * (3 * (ρ ^ 2 * G)) := mul_le_mul_of_nonneg_left F3 G0
  have P : |N 0 * E 0 + N 1 * E 1 + N 2 * E 2| ≤ 2 * ρ * G := by
    apply abs_le_of_sq_le_sq _ (by positivity)
    have : 0 ≤ ρ ^ 2 * G ^ 2 := by positivity
    nlinarith
  have e : (N 0 + E 0) ^ 2 + (N 1 + E 1) ^ 2 + (N 2 + E 2) ^ 2 - G = 2 * (N 0 * E 0 + N 1 * E 1 + N 2 * E 2) + F := by rw [hG, hF]; ring
  rw [e]
  have t := abs_add_le (2 * (N 0 * E 0 + N 1 * E 1 + N 2 * E 2)) F
  rw [abs_mul, abs_of_nonneg F0, show |(2 : ℚ)| = 2 by norm_num] at t
  have : ρ ^ 2 * G ≤ 1 / 32 * (ρ * G) := by
    have := mul_le_mul_of_nonneg_right r1 (by positivity : 0 ≤ ρ * G)
    linarith
  have : 0 ≤ ρ * G := by positivity
  linarith

theorem factor_close {u q : ℚ} (h0 : 0 < u) (h1 : u ≤ 1 / 4096) (lo : (1 - u) ^ 2 / (1 + u) ^ 6 ≤ q) (hi : q ≤ (1 + u) ^ 2 / ((1 - u) ^ 2 * (2 - (1 + u) ^ 4))) :
    |q - 1| ≤ 16 * u := by
  have u2 : u ^ 2 ≤ 1 / 4096 * u := by nlinarith
  have u20 : 0 ≤ u ^ 2 := by positivity
  have u3 : u ^ 3 ≤ 1 / 4096 * u ^ 2 := by nlinarith
  have u30 : 0 ≤ u ^ 3 := by positivity
  have u4 : u ^ 4 ≤ 1 / 4096 * u ^ 3 := by nlinarith
  have u40 : 0 ≤ u ^ 4 := by positivity
  have u5 : u ^ 5 ≤ 1 / 4096 * u ^ 4 := by nlinarith
  have u50 : 0 ≤ u ^ 5 := by positivity
  have u6 : u ^ 6 ≤ 1 / 4096 * u ^ 5 := by nlinarith
  have u60 : 0 ≤ u ^ 6 := by positivity
  have u7 : u ^ 7 ≤ 1 / 4096 * u ^ 6 := by nlinarith
  have u70 : 0 ≤ u ^ 7 := by positivity
  have p6 : 0 < (1 + u) ^ 6 := by positivity
  have d0 : 0 < (1 - u) ^ 2 * (2 - (1 + u) ^ 4) := mul_pos (pow_pos (by linarith) 2) (by linarith)
  rw [div_le_iff₀ p6] at lo
  rw [le_div_iff₀ d0] at hi
  rw [abs_le]
  constructor
  · by_contra hc
    have : q * (1 + u) ^ 6 ≤ (1 - 16 * u) * (1 + u) ^ 6 := mul_le_mul_of_nonneg_right (by linarith) p6.le
    linarith
  · by_contra hc
    have : (1 + 16 * u) * ((1 - u) ^ 2 * (2 - (1 + u) ^ 4)) ≤ q * ((1 - u) ^ 2 * (2 - (1 + u) ^ 4)) := mul_le_mul_of_nonneg_right (by linarith) d0.le
    linarith

theorem factor_exact {u ρ G S q : ℚ} (h0 : 0 < u) (h1 : u ≤ 1 / 4096) (r0 : 0 ≤ ρ) (r1 : ρ ≤ 1 / 32) (hq : 0 ≤ q) (hS : |q * S - 1| ≤ 16 * u) (hG : |S - G| ≤ 5 * ρ * G) :
    |q * G - 1| ≤ 32 * u + 8 * ρ := by
  have a := abs_le.1 hS
  have b := abs_le.1 hG
  have c1 := mul_le_mul_of_nonneg_left b.1 hq
  have c2 := mul_le_mul_of_nonneg_left b.2 hq
  set g := q * G with hg
  have e1 : q * (5 * ρ * G) = 5 * ρ * g := by rw [hg]; ring
  have e2 : q * (-(5 * ρ * G)) = -(5 * ρ * g) := by rw [hg]; ring
  have e3 : q * (S - G) = q * S - g := by rw [hg]; ring
  rw [e2, e3] at c1
  rw [e1, e3] at c2
  have ur : 0 ≤ u * ρ := by positivity
  have ur1 : u * ρ ≤ u * (1 / 32) := mul_le_mul_of_nonneg_left r1 h0.le
  have rr : ρ * ρ ≤ ρ * (1 / 32) := mul_le_mul_of_nonneg_left r1 r0
  rw [abs_le]
  constructor
  · by_contra hc
    have : (1 + 5 * ρ) * g ≤ (1 + 5 * ρ) * (1 - (32 * u + 8 * ρ)) := mul_le_mul_of_nonneg_left (by linarith) (by linarith)
    nlinarith
  · by_contra hc
    have : (1 - 5 * ρ) * (1 + (32 * u + 8 * ρ)) ≤ (1 - 5 * ρ) * g := mul_le_mul_of_nonneg_left (by linarith) (by linarith)
    nlinarith

/-- A component of the normal, from the factor that normalization multiplies with. -/
theorem component {f : Format} (h12 : 12 ≤ f.p) {N E G w σ ρ : ℚ} (r0 : 0 ≤ ρ) (r1 : ρ ≤ 1 / 32) (w0 : 0 < w) (G0 : 0 < G) (hE : |E| ≤ σ) (hs : σ ^ 2 ≤ ρ ^ 2 * G) (hN : N ^ 2 ≤ G)
    (hq : |w ^ 2 * G - 1| ≤ 32 * f.u + 8 * ρ) : |(rd f ((N + E) * w) : ℝ) - (N : ℝ) / √(G : ℝ)| ≤ (normalSlack f ρ : ℚ) := by
  have hu := u_pos f
  have hu1 := u_small h12
  have ht := tiny_pos f
  have q := abs_le.1 hq
  have top : w ^ 2 * G ≤ 3 / 2 := by linarith
  have Nw : |N * w| ≤ 5 / 4 := by
    apply abs_le_of_sq_le_sq _ (by norm_num)
    have := mul_le_mul_of_nonneg_left hN (by positivity : 0 ≤ w ^ 2)
    nlinarith
  have Ew : |E * w| ≤ 3 / 2 * ρ := by
    apply abs_le_of_sq_le_sq _ (by positivity)
    have e2 : E ^ 2 ≤ ρ ^ 2 * G := (sq_le_sq' (abs_le.1 hE).1 (abs_le.1 hE).2).trans hs
    have := mul_le_mul_of_nonneg_left e2 (by positivity : 0 ≤ w ^ 2)
    have := mul_le_mul_of_nonneg_left top (by positivity : 0 ≤ ρ ^ 2)
    have : 0 ≤ ρ ^ 2 := by positivity
    nlinarith
  have all : |(N + E) * w| ≤ 3 / 2 := by
    rw [add_mul]
    have := abs_add_le (N * w) (E * w)
    linarith
  have e1 : |rd f ((N + E) * w) - N * w| ≤ 3 / 2 * f.u + f.tiny + 3 / 2 * ρ := by
    have e := err f ((N + E) * w)
    have t := abs_add_le (rd f ((N + E) * w) - (N + E) * w) (E * w)
    rw [show rd f ((N + E) * w) - (N + E) * w + E * w = rd f ((N + E) * w) - N * w by ring] at t
    have := mul_le_mul_of_nonneg_left all hu.le
    linarith
  have e1' : |(rd f ((N + E) * w) : ℝ) - N * w| ≤ ((3 / 2 * f.u + f.tiny + 3 / 2 * ρ : ℚ) : ℝ) := by exact_mod_cast e1
  have G0' : (0 : ℝ) < G := by exact_mod_cast G0
  have r := Real.sqrt_pos.2 G0'
  have rr : √(G : ℝ) * √(G : ℝ) = G := Real.mul_self_sqrt G0'.le
  have w0' : (0 : ℝ) < w := by exact_mod_cast w0
  have small : |(w : ℝ) * √(G : ℝ) - 1| ≤ ((32 * f.u + 8 * ρ : ℚ) : ℝ) := by
    have hq' : |(w : ℝ) ^ 2 * G - 1| ≤ ((32 * f.u + 8 * ρ : ℚ) : ℝ) := by exact_mod_cast hq
    have e : (w : ℝ) ^ 2 * G - 1 = (w * √(G : ℝ) - 1) * (w * √(G : ℝ) + 1) := by
      have : (w : ℝ) ^ 2 * G = (w : ℝ) ^ 2 * (√(G : ℝ) * √(G : ℝ)) := by rw [rr]
      rw [this]; ring
    rw [e, abs_mul] at hq'
    have p : 1 ≤ |(w : ℝ) * √(G : ℝ) + 1| := by
      have : 0 < (w : ℝ) * √(G : ℝ) := by positivity
      rw [abs_of_pos (by linarith)]
      linarith
    have := mul_le_mul_of_nonneg_left p (abs_nonneg ((w : ℝ) * √(G : ℝ) - 1))
    linarith
  have unitN : |(N : ℝ) / √(G : ℝ)| ≤ 1 := by
    rw [abs_div, abs_of_pos r, div_le_one r]
    apply Real.abs_le_sqrt
    exact_mod_cast hN
  have e2 : |(N : ℝ) * w - N / √(G : ℝ)| ≤ ((32 * f.u + 8 * ρ : ℚ) : ℝ) := by
    have e : (N : ℝ) * w - N / √(G : ℝ) = N / √(G : ℝ) * (w * √(G : ℝ) - 1) := by field_simp
    rw [e, abs_mul]
    calc |(N : ℝ) / √(G : ℝ)| * |(w : ℝ) * √(G : ℝ) - 1| ≤ 1 * |(w : ℝ) * √(G : ℝ) - 1| := mul_le_mul_of_nonneg_right unitN (abs_nonneg _)
      _ ≤ _ := by rw [one_mul]; exact small
  have t := abs_add_le ((rd f ((N + E) * w) : ℝ) - N * w) ((N : ℝ) * w - N / √(G : ℝ))
  rw [sub_add_sub_cancel] at t
  refine (t.trans (add_le_add e1' e2)).trans ?_
  have : 3 / 2 * f.u + f.tiny + 3 / 2 * ρ + (32 * f.u + 8 * ρ) ≤ normalSlack f ρ := by
    unfold normalSlack
    linarith
  exact_mod_cast this

theorem gram_crossed (A B C : Fin 3 → ℚ) : gram A B C = crossed (B - A) (C - A) 0 ^ 2 + crossed (B - A) (C - A) 1 ^ 2 + crossed (B - A) (C - A) 2 ^ 2 := by
  unfold gram
  rw [scalar_dotted, scalar_dotted, scalar_dotted]
  simp only [dotted, crossed, Pi.sub_apply, Matrix.cons_val_zero, Matrix.cons_val_one, Matrix.cons_val]
  ring

theorem unit_eq (A B C : Fin 3 → ℚ) (i : Fin 3) : unit A B C i = (crossed (B - A) (C - A) i : ℝ) / √(gram A B C : ℝ) := rfl

theorem dot_has {f : Format} (hp : 1 ≤ f.p) {k : Store Bool 3} {v w : Store Number 3} {r : Number} (h : dot f k v w = some r) : f.Has r := by
  cases k; cases v; cases w
  cases h
  exact Approx.round_is hp fun s a e => FloatBox.add_mag e

end Verif.Proofs.FloatNormal
