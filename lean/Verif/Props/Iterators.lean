import Verif.Model.Iterators
import Verif.Spec.Traversal
import Mathlib.Data.List.Range
/-!
# C165: iterators of iterable objects
-/
namespace Verif.Props.Iterators
open Verif.Model.Iterators Verif.Spec.Traversal

theorem visits_range : ∀ (k b : ℕ), Visits (· + 1) b (b + k) (List.range' b k)
  | 0, b => .done b
  | k + 1, b => by
    have := visits_range k (b + 1)
    rw [show b + 1 + k = b + (k + 1) by omega] at this
    exact .step _ _ _ (by omega) this

/-- **C165 (arrays).** A loop from the begin iterator of an array to its end iterator visits each element once, in order, and no more. -/
theorem C165_arrays (n size : ℕ) (h : 0 < size) : Visits (· + 1) arrayBegin (arrayEnd n size) (List.range n) := by
  have := visits_range n 0
  simpa [arrayBegin, arrayEnd, Nat.mul_div_cancel _ h, List.range_eq_range'] using this

example : Visits (· + 1) arrayBegin (arrayEnd 3 4) [0, 1, 2] := C165_arrays 3 4 (by decide)

/-- **C165 (choice).** Every type that is iterable has iterators, and no other: an array its pointers; other types those of their members `begin()` and `end()` if they have both, else of the functions. -/
theorem C165_source (t : Asked) :
    (source t ≠ none ↔ isIterable t = true) ∧ (t.boundedArray = true → source t = some .array) ∧
    (t.boundedArray = false → t.members = true → source t = some .members) ∧
    (t.boundedArray = false → t.members = false → t.std = true ∨ t.adl = true → source t = some .free) := by
  rcases t with ⟨a, m, s, d⟩
  cases a <;> cases m <;> cases s <;> cases d <;> simp [source, isIterable]

/-- **C165 (distance).** The distance of two iterators is the number of elements a loop from the one to the other visits, whether it is found by subtraction (which must be the number of increments) or by counting. -/
theorem C165_distance {P : Type} [DecidableEq P] (next : P → P) (minus : Option (Bool × (P → P → ℤ))) (b e : P) (l : List P)
    (hv : Visits next b e l) (hm : ∀ i sub, minus = some (i, sub) → ∀ b e l, Visits next b e l → sub e b = l.length) (fuel : ℕ) (hf : l.length ≤ fuel) :
    distance next minus fuel b e = some l.length := by
  have count : stdDistance next fuel b e = some (l.length : ℤ) := by
    clear hm
    induction hv generalizing fuel with
    | done e => cases fuel <;> simp [stdDistance]
    | step b e l hne _ ih =>
      cases fuel with
      | zero => simp at hf
      | succ fuel => simp [stdDistance, hne, ih fuel (by simpa using hf)]; omega
  rcases minus with _ | ⟨_ | _, sub⟩
  · exact count
  · exact count
  · simp [distance, hm true sub rfl b e l hv]

/-- Counting up, with and without subtraction. -/
example : distance (P := ℕ) (· + 1) (some (true, fun e b => (e : ℤ) - b)) 9 2 6 = some 4 ∧ distance (P := ℕ) (· + 1) none 9 2 6 = some 4 := by decide
example : Visits (P := ℕ) (· + 1) 2 6 [2, 3, 4, 5] := visits_range 4 2

end Verif.Props.Iterators
