import Mathlib.Data.List.Basic

/-!
# Specification: calling a function for each element of a list, until it throws
-/

namespace Verif.Spec.Sequences

/-- `Calls f is w r`: calling `f` once for each element of `is`, in order, starting in state `w`, and stopping when a
call throws, ends as `r` says. -/
inductive Calls {W ι : Type} (f : ι → W → W × Bool) : List ι → W → W × Bool → Prop
  | done (w : W) : Calls f [] w (w, false)
  | throws (i : ι) (is : List ι) (w w' : W) : f i w = (w', true) → Calls f (i :: is) w (w', true)
  | next (i : ι) (is : List ι) (w w' : W) (r : W × Bool) :
      f i w = (w', false) → Calls f is w' r → Calls f (i :: is) w r

/-- The pairs of indices below `n1` and `n2`, the first index varying slowest, is the list in which the pair `(i, j)` is
at position `i * n2 + j`. -/
def RowMajor (n1 n2 : ℕ) (l : List (ℕ × ℕ)) : Prop :=
  l.length = n1 * n2 ∧ ∀ i < n1, ∀ j < n2, l[i * n2 + j]? = some (i, j)

end Verif.Spec.Sequences
