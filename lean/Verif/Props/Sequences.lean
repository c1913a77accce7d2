import Verif.Proofs.Sequences

/-!
# C114, C115: `for_sequence`, `for_product`, `compressed_pair`
-/

namespace Verif.Props.Sequences

open Verif.Model.Sequences Verif.Spec.Sequences Verif.Proofs.Sequences

variable {W : Type}

/-- C114.  `for_sequence<N>` compiles exactly when `N` is not negative, and calls the function once for each of
`0, 1, …, N - 1`, in order, until a call throws. -/
theorem C114_sequence (n : ℤ) (f : ℕ → W → W × Bool) (w : W) (r : W × Bool) :
    forSequence n f w = some r ↔ 0 ≤ n ∧ Calls f (List.range n.toNat) w r := by
  rw [comma_calls, forSequence]
  by_cases h1 : n < 0
  · simp [h1]
  · rw [if_neg h1]
    by_cases h2 : n > 0
    · rw [if_pos h2]
      simp [integers, show 0 ≤ n by omega]
    · have e : n = 0 := by omega
      subst e
      simp [comma]

/-- C114.  `for_product<N1, N2>` compiles exactly when neither is negative, and calls the function once for each pair of
indices, in row-major order, until a call throws. -/
theorem C114_product (n1 n2 : ℤ) (f : ℕ → ℕ → W → W × Bool) (w : W) (r : W × Bool) :
    forProduct n1 n2 f w = some r ↔
      0 ≤ n1 ∧ 0 ≤ n2 ∧
      ∃ l, RowMajor n1.toNat n2.toNat l ∧ Calls (fun p : ℕ × ℕ => f p.1 p.2) l w r := by
  have e : (∃ l, RowMajor n1.toNat n2.toNat l ∧ Calls (fun p : ℕ × ℕ => f p.1 p.2) l w r) ↔
      comma (fun i w => comma (fun j w => f i j w) (List.range n2.toNat) w) (List.range n1.toNat) w = r := by
    rw [comma_nested]
    constructor
    · rintro ⟨l, h1, h2⟩
      rw [rowMajor_unique _ _ _ _ (rowMajor n1.toNat n2.toNat) h1]
      exact (comma_calls _ _ _ _).mp h2
    · intro h
      exact ⟨_, rowMajor _ _, (comma_calls _ _ _ _).mpr h⟩
  rw [e, forProduct]
  by_cases h1 : n1 < 0 ∨ n2 < 0
  · rw [if_pos h1]
    constructor
    · intro h; cases h
    · rintro ⟨h2, h3, _⟩; omega
  · rw [if_neg h1]
    by_cases h2 : n1 > 0 ∧ n2 > 0
    · rw [if_pos h2]
      simp [integers, show 0 ≤ n1 by omega, show 0 ≤ n2 by omega]
    · rw [if_neg h2]
      have h3 : n1.toNat = 0 ∨ n2.toNat = 0 := by omega
      have h4 : comma (fun i w => comma (fun j w => f i j w) (List.range n2.toNat) w) (List.range n1.toNat) w = (w, false) := by
        rcases h3 with h | h
        · rw [h]; rfl
        · rw [h]
          clear e
          induction List.range n1.toNat generalizing w with
          | nil => rfl
          | cons i l ih => simpa [comma] using ih w
      rw [h4]
      simp [show 0 ≤ n1 by omega, show 0 ≤ n2 by omega]

/-- Logging calls; the call with index 2 throws. -/
example : forSequence 5 (fun i (l : List ℕ) => (l ++ [i], decide (i = 2))) [] = some ([0, 1, 2], true) := by decide
example : forProduct 2 3 (fun i j (l : List (ℕ × ℕ)) => (l ++ [(i, j)], false)) [] =
    some ([(0, 0), (0, 1), (0, 2), (1, 0), (1, 1), (1, 2)], false) := by decide
example : Calls (fun i (l : List ℕ) => (l ++ [i], decide (i = 2))) (List.range 5) [] ([0, 1, 2], true) := by
  rw [comma_calls]; decide

/-- No class is its own ancestor. -/
def Acyclic (t : CType) : Prop := t.id ∉ t.ancestors

/-- C115 (full statement).  A pair compiles for every two types, and so do its accessors. -/
def Statement : Prop := ∀ first second : CType, Acyclic first → Acyclic second → compiles first second = true ∧ accessors first second = true

/-- C115.  A pair holds each of its two elements exactly once, as a base or as a member: as a base exactly when it is
empty and not final. -/
theorem C115_layout (first second : CType) :
    (bases first second ++ members first second).Perm [first.id, second.id] ∧
    (∀ i, i ∈ bases first second ↔ (i = first.id ∧ first.isEmpty ∧ ¬first.isFinal) ∨ (i = second.id ∧ second.isEmpty ∧ ¬second.isFinal)) := by
  rcases first with ⟨i, a, b, _⟩
  rcases second with ⟨j, c, d, _⟩
  cases a <;> cases b <;> cases c <;> cases d <;> simp [bases, members, CType.canBeBase, List.Perm.swap]

/-- C115, for all pairs of types except twice the same empty class that is not final. -/
theorem C115_compiles_partial (first second : CType) :
    compiles first second = true ↔ ¬(first.id = second.id ∧ first.isEmpty ∧ ¬first.isFinal ∧ second.isEmpty ∧ ¬second.isFinal) := by
  rcases first with ⟨i, a, b, _⟩
  rcases second with ⟨j, c, d, _⟩
  cases a <;> cases b <;> cases c <;> cases d <;> simp [compiles, bases, CType.canBeBase]

/-- C115, for all pairs of types except two empty classes that are not final and the same or one derived from the other: the accessors compile. -/
theorem C115_accessors_partial (first second : CType) (h1 : Acyclic first) (h2 : Acyclic second) :
    accessors first second = true ↔
      ¬((first.isEmpty ∧ ¬first.isFinal ∧ second.isEmpty ∧ ¬second.isFinal) ∧
        (first.id = second.id ∨ first.id ∈ second.ancestors ∨ second.id ∈ first.ancestors)) := by
  rcases first with ⟨i, a, b, l⟩
  rcases second with ⟨j, c, d, k⟩
  simp only [Acyclic] at h1 h2
  have e1 := List.count_eq_zero.2 h1
  have e2 := List.count_eq_zero.2 h2
  have p1 : List.count i k = 0 ↔ i ∉ k := List.count_eq_zero
  have p2 : List.count j l = 0 ↔ j ∉ l := List.count_eq_zero
  cases a <;> cases b <;> cases c <;> cases d <;>
    simp only [accessors, inherited, CType.canBeBase, Bool.not_true, Bool.not_false, Bool.and_true, Bool.and_false, Bool.true_and,
      Bool.false_and, Bool.or_true, Bool.true_or, Bool.or_false, Bool.false_or, if_true, if_false, List.append_nil, List.nil_append,
      List.count_append, List.count_cons, e1, e2, Bool.and_eq_true, beq_iff_eq, Bool.false_eq_true, reduceIte]
  all_goals try simp
  by_cases hij : i = j
  · subst hij; simp
  · simp [hij, Ne.symm hij, p1, p2]

/-- C115 is violated: `compressed_pair<E, E>` does not compile for an empty class `E`. -/
theorem C115_violated : ¬Statement := fun h => by
  have := (h ⟨0, true, false, []⟩ ⟨0, true, false, []⟩ (by simp [Acyclic]) (by simp [Acyclic])).1
  revert this
  decide

/-- C115 is violated: for an empty class `D` derived from the empty class `B`, `compressed_pair<B, D>` compiles, but its `first()` does not. -/
theorem C115_derived_violated : compiles ⟨0, true, false, []⟩ ⟨1, true, false, [0]⟩ = true ∧ accessors ⟨0, true, false, []⟩ ⟨1, true, false, [0]⟩ = false := by
  decide

example : compiles ⟨0, true, false, []⟩ ⟨1, true, false, []⟩ = true ∧ members ⟨0, true, false, []⟩ ⟨1, false, false, [0]⟩ = [1] ∧
    accessors ⟨0, true, false, []⟩ ⟨1, false, false, [0]⟩ = true := by decide

end Verif.Props.Sequences
