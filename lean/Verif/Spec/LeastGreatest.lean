import Mathlib.Algebra.Order.Ring.Rat
/-! # The least and the greatest of numbers -/
namespace Verif.Spec.LeastGreatest

/-- `m` is the least, `M` the greatest of `ps`. -/
def Extremes (ps : List ℚ) (m M : ℚ) : Prop := m ∈ ps ∧ M ∈ ps ∧ ∀ p ∈ ps, m ≤ p ∧ p ≤ M

end Verif.Spec.LeastGreatest
