import Verif.Spec.ObbRounding
import Verif.Model.FloatObb
import Verif.Proofs.FloatNormal
import Mathlib.LinearAlgebra.Matrix.NonsingularInverse
import Mathlib.Tactic.LinearCombination
import Mathlib.Algebra.Order.Group.MinMax
/-! # Lemmas for C190 -/
namespace Verif.Proofs.FloatObb
open Verif.Spec.IeeeArith Verif.Spec.FloatFormat Verif.Spec.ObbRounding
open Verif.Model.VectorStore hiding construct
open Verif.Model.FloatVector Verif.Model.FloatObb
open Verif.Proofs.FloatVector Verif.Proofs.FloatProducts Verif.Proofs.FloatError Verif.Proofs.FloatPlane Verif.Proofs.FloatTriangle Verif.Proofs.FloatBox
open Verif.Props.FloatCross (are3)

/-- The box has this centre, these axes and these extents. -/
structure IsObb (b : Obb) (C : Fin 3 → ℚ) (A : Fin 3 → Fin 3 → ℚ) (E : Fin 3 → ℚ) : Prop where
  center : IsVec b.center C
  axes : ∀ j, IsVec (b.axes j) (A j)
  extents : IsVec b.extents E

theorem component {v : Store Number 3} {X : Fin 3 → ℚ} (h : IsVec v X) (j : Fin 3) : value (Model.FloatSphere.components v j) = some (X j) := by
  obtain ⟨x, y, z, rfl, hx, hy, hz⟩ := are3 h
  fin_cases j
  · exact hx
  · exact hy
  · exact hz

theorem along_eq (X Y : Fin 3 → ℚ) : along Y X = dotted X Y := by
  unfold along dotted
  rw [Fin.sum_univ_three]

theorem dot_abs {f : Format} {k : Store Bool 3} {v w : Store Number 3} {r : Number} {z : ℚ} (h : dot f k v w = some r) (hz : value r = some z) (hp : 1 ≤ f.p) :
    value (Model.Kahan.abs r) = some |z| := by
  refine abs_value' hz fun s a e => ?_
  have := FloatNormal.dot_has hp h
  rw [e] at this
  obtain ⟨⟨m, n, -, -, q⟩, -⟩ := this
  rw [q]
  positivity

theorem adj_near {f : Format} {b : Obb} {C : Fin 3 → ℚ} {A : Fin 3 → Fin 3 → ℚ} {E : Fin 3 → ℚ} (hb : IsObb b C A E) {p : Store Number 3} {P : Fin 3 → ℚ} (hP : IsVec p P)
    {R S : ℚ} (bC : ∀ i, |C i| ≤ R) (bP : ∀ i, |P i| ≤ R) (bA : ∀ j i, |A j i| ≤ S) (h1 : (1 + f.u) * (2 * R + f.tiny) ≤ f.greatest) (hg : most f R S ≤ f.greatest) :
    ∃ adj, binary .sub f p b.center = some adj ∧ ∀ (k : Store Bool 3) (j : Fin 3), ∃ r, dot f k adj (b.axes j) = some r ∧
      Near f 4 (6 * R * S) ((3 * S + 5) * f.tiny) r (along (A j) (P - C)) := by
  obtain ⟨d, e, n⟩ := sub_near hP hb.center bP bC (by rw [pow_one]; exact h1)
  refine ⟨d, e, fun k j => ?_⟩
  obtain ⟨r, hr, hn⟩ := dot_near k n (exact_vec (f := f) (hb.axes j) (bA j)) (by
    refine le_of_eq_of_le ?_ hg
    unfold most
    ring)
  rw [along_eq]
  exact ⟨r, hr, hn.mono le_rfl (le_of_eq (by ring)) (le_of_eq (by ring))⟩

theorem near_slack {f : Format} {R S : ℚ} {r : Number} {X : ℚ} (h : Near f 4 (6 * R * S) ((3 * S + 5) * f.tiny) r X) : ∃ z, value r = some z ∧ |z - X| ≤ slack f R S := by
  obtain ⟨z, h1, -, -, h2⟩ := h
  exact ⟨z, h1, h2⟩

/-- Each test says yes if there is room for rounding, and only if rounding can hide the rest. -/
theorem within_near {f : Format} (hp : 1 ≤ f.p) {b : Obb} {C : Fin 3 → ℚ} {A : Fin 3 → Fin 3 → ℚ} {E : Fin 3 → ℚ} (hb : IsObb b C A E) {R S : ℚ} {adj : Store Number 3} {X : ℚ} {j : Fin 3}
    {k : Store Bool 3} {r : Number} (hr : dot f k adj (b.axes j) = some r) (hn : Near f 4 (6 * R * S) ((3 * S + 5) * f.tiny) r X) :
    ∃ a, within f k b adj j = some a ∧ (a = true → |X| ≤ E j + slack f R S) ∧ (|X| + slack f R S ≤ E j → a = true) := by
  obtain ⟨z, hz, he⟩ := near_slack hn
  have t1 := abs_add_le (X - z) z
  have t2 := abs_add_le (z - X) X
  rw [sub_add_cancel] at t1 t2
  rw [abs_sub_comm] at t1
  refine ⟨_, by rw [within, hr, Option.map_some], fun h => ?_, fun h => ?_⟩
  · have := (atLeast_values (component hb.extents j) (dot_abs hr hz hp)).1 h
    linarith
  · exact (atLeast_values (component hb.extents j) (dot_abs hr hz hp)).2 (by linarith)

theorem contains_near {f : Format} (hp : 1 ≤ f.p) (k : Fin 3 → Store Bool 3) {b : Obb} {C : Fin 3 → ℚ} {A : Fin 3 → Fin 3 → ℚ} {E : Fin 3 → ℚ} (hb : IsObb b C A E)
    {p : Store Number 3} {P : Fin 3 → ℚ} (hP : IsVec p P) {R S : ℚ} (bC : ∀ i, |C i| ≤ R) (bP : ∀ i, |P i| ≤ R) (bA : ∀ j i, |A j i| ≤ S)
    (h1 : (1 + f.u) * (2 * R + f.tiny) ≤ f.greatest) (hg : most f R S ≤ f.greatest) :
    ∃ a, contains f k b p = some a ∧ (a = true → ∀ j, |along (A j) (P - C)| ≤ E j + slack f R S) ∧ ((∀ j, |along (A j) (P - C)| + slack f R S ≤ E j) → a = true) := by
  obtain ⟨adj, e, h⟩ := adj_near hb hP bC bP bA h1 hg
  obtain ⟨r0, d0, n0⟩ := h (k 0) 0
  obtain ⟨r1, d1, n1⟩ := h (k 1) 1
  obtain ⟨r2, d2, n2⟩ := h (k 2) 2
  obtain ⟨a0, w0, s0, c0⟩ := within_near hp hb d0 n0
  obtain ⟨a1, w1, s1, c1⟩ := within_near hp hb d1 n1
  obtain ⟨a2, w2, s2, c2⟩ := within_near hp hb d2 n2
  refine ⟨a0 && (a1 && a2), ?_, fun t j => ?_, fun t => ?_⟩
  · unfold contains
    simp only [e, w0, w1, w2, Option.bind_eq_bind, Option.bind_some]
    cases a0 <;> cases a1 <;> rfl
  · simp only [Bool.and_eq_true] at t
    fin_cases j
    · exact s0 t.1
    · exact s1 t.2.1
    · exact s2 t.2.2
  · rw [c0 (t 0), c1 (t 1), c2 (t 2)]
    rfl

/-- One step along an axis. -/
theorem step_near {f : Format} {m k : ℕ} {V U M T S : ℚ} {v a : Store Number 3} {X Y : Fin 3 → ℚ} {t : Number} {τ : ℚ} (c : Store Bool 3) (hv : NearVec f m V U v X)
    (ht : Near f k M T t τ) (ha : NearVec f 0 S 0 a Y) (hm : k + 1 ≤ m) (hg : (1 + f.u) ^ (m + 1) * (V + S * M + (U + (S * T + f.tiny) + f.tiny)) ≤ f.greatest) :
    NearVec f (m + 1) (V + S * M) (U + (S * T + f.tiny) + f.tiny) (step f c v t a) (fun i => X i + τ * Y i) := by
  obtain ⟨x, y, z, rfl, hx, hy, hz⟩ := hv
  obtain ⟨x', y', z', rfl, hx', hy', hz'⟩ := ha
  have tp := tiny_pos f
  obtain ⟨V0, U0⟩ := Near.nonneg hx
  obtain ⟨S0, -⟩ := Near.nonneg hx'
  obtain ⟨M0, T0⟩ := Near.nonneg ht
  have i1 : 0 ≤ S * M := by positivity
  have i2 : 0 ≤ S * T := by positivity
  cases c with
  | three c1 c2 c3 =>
    have one : ∀ (b : Bool) {p q : Number} {P Q : ℚ}, Near f m V U p P → Near f 0 S 0 q Q →
        Near f (m + 1) (V + S * M) (U + (S * T + f.tiny) + f.tiny) (Op.add.eval f p (product f (q, t) b)) (P + τ * Q) := by
      intro b p q P Q h1 h2
      have h3 := (h2.product ht b (grow (l := m + 1) (by omega) (B := V + S * M + (U + (S * T + f.tiny) + f.tiny)) (by linarith) (by linarith) hg)).mono (k' := m) (by omega) le_rfl
        (T' := S * T + f.tiny) (by linarith)
      have := (h1.add h3).round hg
      rwa [mul_comm Q τ] at this
    exact ⟨_, _, _, rfl, one c1 hx hx', one c2 hy hy', one c3 hz hz'⟩

theorem NearVec.mono {f : Format} {k k' : ℕ} {M T M' T' : ℚ} {v : Store Number 3} {X : Fin 3 → ℚ} (h : NearVec f k M T v X) (hk : k ≤ k') (hM : M ≤ M') (hT : T ≤ T') :
    NearVec f k' M' T' v X := by
  obtain ⟨x, y, z, rfl, hx, hy, hz⟩ := h
  exact ⟨x, y, z, rfl, hx.mono hk hM hT, hy.mono hk hM hT, hz.mono hk hM hT⟩

theorem walk_near {f : Format} {k : ℕ} (c : Fin 3 → Store Bool 3) {b : Obb} {C : Fin 3 → ℚ} {A : Fin 3 → Fin 3 → ℚ} {E : Fin 3 → ℚ} (hb : IsObb b C A E) {R S M T : ℚ}
    (bC : ∀ i, |C i| ≤ R) (bA : ∀ j i, |A j i| ≤ S) {t : Fin 3 → Number} {τ : Fin 3 → ℚ} (ht : ∀ j, Near f k M T (t j) (τ j))
    (hg : (1 + f.u) ^ (k + 4) * (R + 3 * (S * M) + (3 * (S * T + f.tiny) + 3 * f.tiny)) ≤ f.greatest) :
    NearVec f (k + 4) (R + 3 * (S * M)) (3 * (S * T + f.tiny) + 3 * f.tiny) (walk f c b t) (reached C A τ) := by
  have tp := tiny_pos f
  have R0 : 0 ≤ R := (abs_nonneg _).trans (bC 0)
  have S0 : 0 ≤ S := (abs_nonneg _).trans (bA 0 0)
  obtain ⟨M0, T0⟩ := Near.nonneg (ht 0)
  have i1 : 0 ≤ S * M := by positivity
  have i2 : 0 ≤ S * T := by positivity
  have v0 := NearVec.mono (exact_vec (f := f) hb.center bC) (Nat.zero_le (k + 1)) le_rfl le_rfl
  have v1 := step_near (c 0) v0 (ht 0) (exact_vec (hb.axes 0) (bA 0)) le_rfl (grow (l := k + 4) (by omega) (by linarith) (by linarith) hg)
  have v2 := step_near (c 1) v1 (ht 1) (exact_vec (hb.axes 1) (bA 1)) (by omega) (grow (l := k + 4) (by omega) (by linarith) (by linarith) hg)
  have v3 := step_near (c 2) v2 (ht 2) (exact_vec (hb.axes 2) (bA 2)) (by omega) (grow (l := k + 4) (by omega) (by linarith) (by linarith) hg)
  have e : reached C A τ = fun i => C i + τ 0 * A 0 i + τ 1 * A 1 i + τ 2 * A 2 i := by
    funext i
    unfold reached
    rw [Fin.sum_univ_three]
    ring
  rw [e]
  exact NearVec.mono v3 le_rfl (by linarith) (by linarith)

/-- `clamp` to an interval around zero. -/
theorem clamp_near {f : Format} {k : ℕ} {M T : ℚ} {d e : Number} {X E : ℚ} (h : Near f k M T d X) (he : value e = some E) (E0 : 0 ≤ E) :
    Near f k M T (Model.CoreUtils.clamp (fun a b => Model.Kahan.less a b) d e.negate e) (max (-E) (min E X)) := by
  obtain ⟨z, h1, h2, h3, h4⟩ := h
  have hv : value (Model.CoreUtils.clamp (fun a b => Model.Kahan.less a b) d e.negate e) = some (max (-E) (min E z)) := by
    unfold Model.CoreUtils.clamp
    rw [if_congr (less_values h1 (FloatBox.value_negate he)) rfl (if_congr (less_values he h1) rfl rfl)]
    split
    · rename_i g
      rw [FloatBox.value_negate he, min_eq_right (by linarith), max_eq_left g.le]
    · rename_i g
      split
      · rename_i g'
        rw [he, min_eq_left g'.le, max_eq_right (by linarith)]
      · rename_i g'
        rw [h1, min_eq_right (not_lt.1 g'), max_eq_right (not_lt.1 g)]
  refine ⟨_, hv, ?_, h3, ?_⟩
  · refine le_trans ?_ h2
    rcases le_total 0 X with p | p
    · rw [abs_of_nonneg p, max_eq_right (by have := le_min E0 p; linarith), abs_of_nonneg (le_min E0 p)]
      exact min_le_right _ _
    · rw [min_eq_right (p.trans E0), abs_of_nonpos p, abs_of_nonpos (max_le (by linarith) p)]
      linarith [le_max_right (-E) X]
  · refine le_trans ?_ h4
    have a := abs_max_sub_max_le_max (-E) (min E z) (-E) (min E X)
    have b := abs_min_sub_min_le_max E z E X
    rw [sub_self, abs_zero, max_eq_right (a := (0 : ℚ)) (abs_nonneg _)] at a b
    exact a.trans b

theorem gram_apply (A : Fin 3 → Fin 3 → ℚ) (T : Fin 3 → ℚ) (C : Fin 3 → ℚ) (j : Fin 3) : along (A j) (reached C A T - C) = ∑ i, T i * along (A j) (A i) := by
  unfold along reached
  simp only [Pi.sub_apply, Fin.sum_univ_three]
  ring

theorem gram_bound {A : Fin 3 → Fin 3 → ℚ} {ω : ℚ} (h : Nearly ω A) (T : Fin 3 → ℚ) (j : Fin 3) :
    |∑ i, T i * along (A j) (A i) - T j| ≤ ω * (|T 0| + |T 1| + |T 2|) := by
  have e : ∑ i, T i * along (A j) (A i) - T j = ∑ i, T i * (along (A j) (A i) - (if j = i then 1 else 0)) := by
    simp only [mul_sub, Finset.sum_sub_distrib, mul_ite, mul_one, mul_zero, Finset.sum_ite_eq, Finset.mem_univ, if_true]
  rw [e]
  refine (Finset.abs_sum_le_sum_abs _ _).trans ?_
  have one : ∀ i, |T i * (along (A j) (A i) - (if j = i then 1 else 0))| ≤ ω * |T i| := fun i => by
    rw [abs_mul, mul_comm]
    exact mul_le_mul_of_nonneg_right (h j i) (abs_nonneg _)
  refine (Finset.sum_le_sum fun i _ => one i).trans (le_of_eq ?_)
  rw [Fin.sum_univ_three]
  ring

/-- What is nearly its own image is not larger. -/
theorem solve_bound {ω D : ℚ} (hω : 3 * ω < 1) (w0 : 0 ≤ ω) {T d : Fin 3 → ℚ} (h : ∀ j, |d j - T j| ≤ ω * (|T 0| + |T 1| + |T 2|)) (hd : ∀ j, |d j| ≤ D) :
    |T 0| + |T 1| + |T 2| ≤ 3 * D / (1 - 3 * ω) := by
  have one : ∀ j, |T j| ≤ D + ω * (|T 0| + |T 1| + |T 2|) := fun j => by
    have := abs_sub_abs_le_abs_sub (T j) (d j)
    rw [abs_sub_comm] at this
    linarith [h j, hd j]
  rw [le_div_iff₀ (by linarith)]
  linarith [one 0, one 1, one 2]

theorem solvable {A : Fin 3 → Fin 3 → ℚ} {ω : ℚ} (hω : 3 * ω < 1) (h : Nearly ω A) (C P : Fin 3 → ℚ) : ∃ T, P = reached C A T := by
  have w0 : 0 ≤ ω := (abs_nonneg _).trans (h 0 0)
  let M : Matrix (Fin 3) (Fin 3) ℚ := Matrix.of A
  have inj : Function.Injective M.vecMul := by
    intro x y e
    have z : ∀ i, ∑ j, (x - y) j * A j i = 0 := fun i => by
      have := congrFun e i
      simp only [Matrix.vecMul, dotProduct, M, Matrix.of_apply] at this
      simp only [Pi.sub_apply, sub_mul, Finset.sum_sub_distrib]
      linarith
    have r : reached 0 A (x - y) - 0 = 0 := by
      funext i
      simp only [reached, Pi.sub_apply, Pi.zero_apply, zero_add, sub_zero]
      exact z i
    have s := solve_bound hω w0 (T := x - y) (d := 0) (D := 0) (fun j => by
      have := gram_bound h (x - y) j
      rw [← gram_apply A (x - y) 0 j, r] at this
      simpa [along] using this) (fun j => by simp)
    rw [mul_zero, zero_div] at s
    have n := fun j => abs_nonneg ((x - y) j)
    funext j
    have : |(x - y) j| = 0 := by
      have := n 0; have := n 1; have := n 2
      fin_cases j <;> simp only [Fin.zero_eta, Fin.mk_one, Fin.reduceFinMk] <;> linarith
    rw [abs_eq_zero, Pi.sub_apply] at this
    linarith
  have u : IsUnit M := Matrix.vecMul_injective_iff_isUnit.1 inj
  obtain ⟨T, hT⟩ := (Matrix.vecMul_surjective_iff_isUnit.2 u) (P - C)
  refine ⟨T, funext fun i => ?_⟩
  have := congrFun hT i
  simp only [Matrix.vecMul, dotProduct, M, Matrix.of_apply, Pi.sub_apply] at this
  unfold reached
  linarith

theorem apart_eq {A : Fin 3 → Fin 3 → ℚ} (h : Orthonormal A) (C T U : Fin 3 → ℚ) : apart (reached C A T) (reached C A U) = ∑ j, (T j - U j) ^ 2 := by
  have h00 := h 0 0
  have h01 := h 0 1
  have h02 := h 0 2
  have h11 := h 1 1
  have h12 := h 1 2
  have h22 := h 2 2
  simp only [along, Fin.sum_univ_three] at h00 h01 h02 h11 h12 h22
  rw [if_pos trivial] at h00 h11 h22
  rw [if_neg (by decide)] at h01 h02 h12
  unfold apart reached
  simp only [Fin.sum_univ_three]
  linear_combination (T 0 - U 0) ^ 2 * h00 + (T 1 - U 1) ^ 2 * h11 + (T 2 - U 2) ^ 2 * h22 + 2 * (T 0 - U 0) * (T 1 - U 1) * h01 + 2 * (T 0 - U 0) * (T 2 - U 2) * h02 +
    2 * (T 1 - U 1) * (T 2 - U 2) * h12

theorem clamp_best {E x t : ℚ} (ht : |t| ≤ E) : (max (-E) (min E x) - x) ^ 2 ≤ (t - x) ^ 2 := by
  obtain ⟨h1, h2⟩ := abs_le.1 ht
  rw [sq_le_sq]
  rcases le_total x (-E) with p | p
  · rw [min_eq_right (by linarith), max_eq_left p, abs_of_nonneg (by linarith), abs_of_nonneg (by linarith)]
    linarith
  · rcases le_total E x with q | q
    · rw [min_eq_left q, max_eq_right (by linarith), abs_of_nonpos (by linarith), abs_of_nonpos (by linarith)]
      linarith
    · rw [min_eq_right q, max_eq_right p, sub_self, abs_zero]
      exact abs_nonneg _

end Verif.Proofs.FloatObb
