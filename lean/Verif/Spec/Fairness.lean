import Mathlib.Data.Nat.Notation
/-! Temporal notions over discrete time, to say what a scheduler owes the threads. -/
namespace Verif.Spec.Fairness

/-- again and again: at arbitrarily late moments -/
def Often (p : ℕ → Prop) : Prop := ∀ n, ∃ m, n ≤ m ∧ p m

/-- at some moment at or after `n` -/
def EventuallyFrom (n : ℕ) (p : ℕ → Prop) : Prop := ∃ m, n ≤ m ∧ p m

end Verif.Spec.Fairness
