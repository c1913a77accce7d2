import Verif.Spec.PlaneRounding
import Verif.Model.FloatPlane
import Verif.Props.FloatQuat
import Verif.Proofs.FloatSphere
import Mathlib.Tactic.Linarith
/-! # Lemmas for C182 -/
namespace Verif.Proofs.FloatPlane
open Verif.Spec.IeeeArith Verif.Spec.FloatFormat Verif.Spec.Representable Verif.Spec.PlaneRounding Verif.Spec.Closeness
open Verif.Model.VectorStore Verif.Model.FloatVector Verif.Model.FloatPlane
open Verif.Proofs.FloatVector Verif.Proofs.FloatProducts Verif.Proofs.FloatError
open Verif.Props.FloatCross (are3)
open Verif.Props.FloatQuat (dot3)

/-- The vector `v` is `P`. -/
def IsVec (v : Store Number 3) (P : Fin 3 → ℚ) : Prop := Are (parts v) [P 0, P 1, P 2]

/-- The plane is `N · x + D = 0`. -/
def IsPlane (p : Plane) (N : Fin 3 → ℚ) (D : ℚ) : Prop := IsVec p.normal N ∧ value p.d = some D

theorem bulk_eq (N : Fin 3 → ℚ) (D : ℚ) (P : Fin 3 → ℚ) : bulk N D P = |N 0 * P 0| + |N 1 * P 1| + |N 2 * P 2| + |D| := by
  unfold bulk; rw [Fin.sum_univ_three]

theorem offset_eq (N : Fin 3 → ℚ) (D : ℚ) (P : Fin 3 → ℚ) : offset N D P = N 0 * P 0 + N 1 * P 1 + N 2 * P 2 + D := by
  unfold offset; rw [Fin.sum_univ_three]

theorem distance_near (f : Format) (k : Store Bool 3) (hk : Contraction k) {p : Plane} {N : Fin 3 → ℚ} {D : ℚ} (hp : IsPlane p N D) {v : Store Number 3} {P : Fin 3 → ℚ}
    (hv : IsVec v P) (hg : InRange f N D P) : ∃ r, signedDistance f k p v = some r ∧ Near f 4 (bulk N D P) (4 * f.tiny) r (offset N D P) := by
  obtain ⟨n, d⟩ := p
  obtain ⟨hn, hd⟩ := hp
  obtain ⟨x, y, z, rfl, hx, hy, hz⟩ := are3 hn
  obtain ⟨x', y', z', rfl, hx', hy', hz'⟩ := are3 hv
  have ht := tiny_pos f
  have a0 := abs_nonneg (N 0 * P 0)
  have a1 := abs_nonneg (N 1 * P 1)
  have a2 := abs_nonneg (N 2 * P 2)
  have a3 := abs_nonneg D
  unfold InRange at hg
  rw [bulk_eq] at hg ⊢
  rw [offset_eq]
  obtain ⟨r, h1, h2⟩ := dot3 f k hk hx hy hz hx' hy' hz' (grow (by norm_num) (by linarith) (by linarith) hg)
  refine ⟨_, by unfold signedDistance; rw [h1]; rfl, ?_⟩
  have := (h2.add ((Near.exact f hd).mono (k' := 3) (by norm_num) le_rfl le_rfl)).round (by
    refine le_of_eq_of_le ?_ hg
    ring)
  refine cast ?_ this
  congr 1
  ring

theorem distance_err (f : Format) (k : Store Bool 3) (hk : Contraction k) {p : Plane} {N : Fin 3 → ℚ} {D : ℚ} (hp : IsPlane p N D) {v : Store Number 3} {P : Fin 3 → ℚ}
    (hv : IsVec v P) (hg : InRange f N D P) : ∃ r z, signedDistance f k p v = some r ∧ value r = some z ∧ |z - offset N D P| ≤ slack f N D P := by
  obtain ⟨r, h1, z, h2, -, -, h3⟩ := distance_near f k hk hp hv hg
  exact ⟨r, z, h1, h2, h3⟩

theorem slack_nonneg (f : Format) (N : Fin 3 → ℚ) (D : ℚ) (P : Fin 3 → ℚ) : 0 ≤ slack f N D P := by
  unfold slack
  have hu := one_le f 4
  have ht := tiny_pos f
  have : 0 ≤ bulk N D P := by
    rw [bulk_eq]
    positivity
  have h1 : 0 ≤ ((1 + f.u) ^ 4 - 1) * bulk N D P := mul_nonneg (by linarith) this
  have h2 : 0 ≤ (1 + f.u) ^ 4 * (4 * f.tiny) := by positivity
  linarith

/-- What was computed is a number of the format. -/
theorem distance_has {f : Format} (hp : 1 ≤ f.p) (k : Store Bool 3) (p : Plane) (v : Store Number 3) {r : Number} (h : signedDistance f k p v = some r) : f.Has r := by
  unfold signedDistance at h
  cases hd : dot f k p.normal v with
  | none => rw [hd] at h; cases h
  | some s =>
    rw [hd] at h
    simp only [Option.bind_eq_bind, Option.bind_some, Option.some.injEq] at h
    rw [← h]
    exact Approx.round_is hp fun s a e => FloatBox.add_mag e

theorem side_right {f : Format} {p : Plane} {N : Fin 3 → ℚ} {D : ℚ} (hp : IsPlane p N D) {q : Store Bool 3 × Store Number 3} (hk : Contraction q.1) {P : Fin 3 → ℚ}
    (hv : IsVec q.2 P) (hg : InRange f N D P) (hs : slack f N D P < |offset N D P|) : side f p q = some (decide (0 ≤ offset N D P)) := by
  obtain ⟨r, z, h1, h2, h3⟩ := distance_err f q.1 hk hp hv hg
  have s0 := slack_nonneg f N D P
  unfold side
  rw [h1]
  simp only [Option.bind_eq_bind, Option.bind_some, Option.some.injEq]
  rw [Bool.eq_iff_iff, FloatBox.atLeast_values h2 (Y := 0) (by simp [value, signed]), decide_eq_true_iff]
  have := abs_le.1 h3
  constructor
  · intro hz
    by_contra hc
    rw [abs_of_neg (not_le.1 hc)] at hs
    linarith
  · intro hc
    rw [abs_of_nonneg hc] at hs
    linarith

/-- The dot product does not depend on the order of the vectors, if the same products are contracted. -/
theorem dot_swap (f : Format) (k : Store Bool 3) (v w : Store Number 3) : dot f k v w = dot f k w v := by
  cases v with
  | three a b c =>
    cases w with
    | three x y z =>
      cases k with
      | three k1 k2 k3 =>
        show some _ = some _
        rw [Option.some.injEq]
        rw [Props.FloatCross.product_comm f a x k1, Props.FloatCross.product_comm f b y k2, Props.FloatCross.product_comm f c z k3]

end Verif.Proofs.FloatPlane
