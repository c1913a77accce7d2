import Verif.Model.FloatObbs
import Verif.Proofs.FloatObb
import Verif.Proofs.FloatSpheres
import Verif.Props.FloatSphere
/-! # Lemmas for C191 -/
namespace Verif.Proofs.FloatObbs
open Verif.Spec.IeeeArith Verif.Spec.FloatFormat Verif.Spec.ObbRounding
open Verif.Model.VectorStore hiding construct
open Verif.Model.FloatVector Verif.Model.FloatObb Verif.Model.FloatObbs
open Verif.Proofs.FloatVector Verif.Proofs.FloatPlane Verif.Proofs.FloatObb
open Verif.Props.FloatSphere (IsPoint)

theorem step_has {f : Format} (hp : 1 ≤ f.p) (c : Store Bool 3) (v a : Store Number 3) (t : Number) : ∀ x ∈ parts (step f c v t a), f.Has x := by
  cases c; cases v; cases a
  intro x hx
  simp only [step, parts, List.mem_cons, List.not_mem_nil, or_false] at hx
  rcases hx with rfl | rfl | rfl <;> exact Approx.round_is hp fun s a e => FloatBox.add_mag e

theorem closest_has {f : Format} (hp : 1 ≤ f.p) {k l : Fin 3 → Store Bool 3} {b : Obb} {p q : Store Number 3} (h : closestPoint f k l b p = some q) : ∀ x ∈ parts q, f.Has x := by
  unfold closestPoint at h
  simp only [Option.bind_eq_bind, Option.bind_eq_some_iff, Option.some.injEq] at h
  obtain ⟨_, -, _, -, _, -, _, -, rfl⟩ := h
  exact step_has hp _ _ _ _

theorem corner_has {f : Format} (hp : 1 ≤ f.p) (l : Fin 3 → Store Bool 3) (b : Obb) (up : Fin 3 → Bool) (i : Fin 3) : f.Has (Model.FloatSphere.components (corner f l b up) i) := by
  have h := step_has hp (l 2) (step f (l 1) (step f (l 0) b.center (if up 0 then Model.FloatSphere.components b.extents 0 else (Model.FloatSphere.components b.extents 0).negate) (b.axes 0))
    (if up 1 then Model.FloatSphere.components b.extents 1 else (Model.FloatSphere.components b.extents 1).negate) (b.axes 1)) (b.axes 2)
    (if up 2 then Model.FloatSphere.components b.extents 2 else (Model.FloatSphere.components b.extents 2).negate)
  change ∀ x ∈ parts (corner f l b up), f.Has x at h
  revert h
  cases corner f l b up with
  | three x y z =>
    intro h
    fin_cases i
    · exact h x (by simp [parts])
    · exact h y (by simp [parts])
    · exact h z (by simp [parts])

theorem order_all (up : Fin 3 → Bool) : up ∈ order := by
  have e : up = ![up 0, up 1, up 2] := by
    funext i
    fin_cases i <;> rfl
  rw [e]
  cases up 0 <;> cases up 1 <;> cases up 2 <;> simp [order]

/-- Along each coordinate, some corner is the last of the box. -/
theorem extreme {C : Fin 3 → ℚ} {A : Fin 3 → Fin 3 → ℚ} {E T : Fin 3 → ℚ} (hT : ∀ j, |T j| ≤ E j) (i : Fin 3) :
    (reached C A fun j => if decide (0 ≤ A j i) then -E j else E j) i ≤ reached C A T i ∧ reached C A T i ≤ (reached C A fun j => if decide (0 ≤ A j i) then E j else -E j) i := by
  have one : ∀ j, (if decide (0 ≤ A j i) then -E j else E j) * A j i ≤ T j * A j i ∧ T j * A j i ≤ (if decide (0 ≤ A j i) then E j else -E j) * A j i := fun j => by
    obtain ⟨h1, h2⟩ := abs_le.1 (hT j)
    by_cases h : 0 ≤ A j i
    · simp only [h, decide_true, if_true]
      exact ⟨mul_le_mul_of_nonneg_right h1 h, mul_le_mul_of_nonneg_right h2 h⟩
    · simp only [h, decide_false]
      have h := (not_le.1 h).le
      exact ⟨mul_le_mul_of_nonpos_right h2 h, mul_le_mul_of_nonpos_right h1 h⟩
  unfold reached
  exact ⟨add_le_add le_rfl (Finset.sum_le_sum fun j _ => (one j).1), add_le_add le_rfl (Finset.sum_le_sum fun j _ => (one j).2)⟩

theorem minRange_spec (i : Fin 3) : ∀ (vs : List Model.FloatBox.Vec) (v : Model.FloatBox.Vec) (_ : ∀ p ∈ v :: vs, ∃ X, value (p i) = some X),
    (∃ p ∈ v :: vs, minRange v vs i = p i) ∧ ∃ M, value (minRange v vs i) = some M ∧ ∀ p ∈ v :: vs, ∀ X, value (p i) = some X → M ≤ X
  | [], v, h => by
    obtain ⟨X, hX⟩ := h v (by simp)
    refine ⟨⟨v, by simp, rfl⟩, X, hX, fun p hp Z hZ => ?_⟩
    rw [List.mem_singleton.1 hp, hX, Option.some.injEq] at hZ
    exact hZ.le
  | w :: vs, v, h => by
    obtain ⟨X, hX⟩ := h v (by simp)
    obtain ⟨Y, hY⟩ := h w (by simp)
    have hm : value ((fun i => Model.CoreUtils.min2 Model.Kahan.less (v i) (w i) : Model.FloatBox.Vec) i) = some (min X Y) := FloatBox.min2_value hX hY
    obtain ⟨⟨q, hq, e⟩, M, hM, hle⟩ := minRange_spec i vs (fun i => Model.CoreUtils.min2 Model.Kahan.less (v i) (w i)) fun p hp => by
      rcases List.mem_cons.1 hp with rfl | hp
      · exact ⟨_, hm⟩
      · exact h p (by simp [hp])
    refine ⟨?_, M, hM, fun p hp Z hZ => ?_⟩
    · rcases List.mem_cons.1 hq with rfl | hq
      · rcases FloatBox.min2_or (x := v i) (y := w i) with e2 | e2
        · exact ⟨v, by simp, e.trans e2⟩
        · exact ⟨w, by simp, e.trans e2⟩
      · exact ⟨q, by simp [hq], e⟩
    · have := hle _ List.mem_cons_self _ hm
      simp only [List.mem_cons] at hp
      rcases hp with rfl | rfl | hp
      · rw [hX, Option.some.injEq] at hZ
        exact hZ ▸ this.trans (min_le_left _ _)
      · rw [hY, Option.some.injEq] at hZ
        exact hZ ▸ this.trans (min_le_right _ _)
      · exact hle p (by simp [hp]) Z hZ

theorem maxRange_spec (i : Fin 3) : ∀ (vs : List Model.FloatBox.Vec) (v : Model.FloatBox.Vec) (_ : ∀ p ∈ v :: vs, ∃ X, value (p i) = some X),
    (∃ p ∈ v :: vs, maxRange v vs i = p i) ∧ ∃ M, value (maxRange v vs i) = some M ∧ ∀ p ∈ v :: vs, ∀ X, value (p i) = some X → X ≤ M
  | [], v, h => by
    obtain ⟨X, hX⟩ := h v (by simp)
    refine ⟨⟨v, by simp, rfl⟩, X, hX, fun p hp Z hZ => ?_⟩
    rw [List.mem_singleton.1 hp, hX, Option.some.injEq] at hZ
    exact hZ.ge
  | w :: vs, v, h => by
    obtain ⟨X, hX⟩ := h v (by simp)
    obtain ⟨Y, hY⟩ := h w (by simp)
    have hm : value ((fun i => Model.CoreUtils.max2 Model.Kahan.less (v i) (w i) : Model.FloatBox.Vec) i) = some (max X Y) := FloatBox.max2_value hX hY
    obtain ⟨⟨q, hq, e⟩, M, hM, hle⟩ := maxRange_spec i vs (fun i => Model.CoreUtils.max2 Model.Kahan.less (v i) (w i)) fun p hp => by
      rcases List.mem_cons.1 hp with rfl | hp
      · exact ⟨_, hm⟩
      · exact h p (by simp [hp])
    refine ⟨?_, M, hM, fun p hp Z hZ => ?_⟩
    · rcases List.mem_cons.1 hq with rfl | hq
      · rcases FloatBox.max2_or (x := v i) (y := w i) with e2 | e2
        · exact ⟨v, by simp, e.trans e2⟩
        · exact ⟨w, by simp, e.trans e2⟩
      · exact ⟨q, by simp [hq], e⟩
    · have := hle _ List.mem_cons_self _ hm
      simp only [List.mem_cons] at hp
      rcases hp with rfl | rfl | hp
      · rw [hX, Option.some.injEq] at hZ
        exact hZ ▸ (le_max_left _ _).trans this
      · rw [hY, Option.some.injEq] at hZ
        exact hZ ▸ (le_max_right _ _).trans this
      · exact hle p (by simp [hp]) Z hZ

theorem reached_le {C : Fin 3 → ℚ} {A : Fin 3 → Fin 3 → ℚ} {T : Fin 3 → ℚ} {R S L : ℚ} (bC : ∀ i, |C i| ≤ R) (bA : ∀ j i, |A j i| ≤ S) (bT : ∀ j, |T j| ≤ L) (i : Fin 3) :
    |reached C A T i| ≤ R + 3 * S * L := by
  have S0 : 0 ≤ S := (abs_nonneg _).trans (bA 0 0)
  have L0 : 0 ≤ L := (abs_nonneg _).trans (bT 0)
  have one : ∀ j, |T j * A j i| ≤ L * S := fun j => by
    rw [abs_mul]
    exact mul_le_mul (bT j) (bA j i) (abs_nonneg _) L0
  unfold reached
  have h1 := abs_add_le (C i) (∑ j, T j * A j i)
  have h2 := Finset.abs_sum_le_sum_abs (fun j => T j * A j i) Finset.univ
  rw [Fin.sum_univ_three (f := fun j => |T j * A j i|)] at h2
  linarith [one 0, one 1, one 2, bC i, mul_comm L S]

end Verif.Proofs.FloatObbs
