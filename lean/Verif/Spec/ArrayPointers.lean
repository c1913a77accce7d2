import Mathlib.Tactic.Common
import Mathlib.Data.Int.Order.Basic
/-!
# Pointers to the elements of arrays

The rules of the language for pointer arithmetic (C++17, [expr.add] and [expr.rel]). `none` is undefined behaviour or an unspecified result.
-/
namespace Verif.Spec.ArrayPointers

/-- The null pointer, or a pointer to the element of this index of an array, or past its last element. -/
inductive Ptr where
  | null
  | elem (array index : ℕ)
  deriving DecidableEq

/-- The number of elements of each array. -/
abbrev Memory := ℕ → ℕ

/-- `p + n`: within the array or just past it; nothing can be added to the null pointer but zero. -/
def add (mem : Memory) : Ptr → ℤ → Option Ptr
  | .null, n => if n = 0 then some .null else none
  | .elem a i, n => if 0 ≤ i + n ∧ i + n ≤ mem a then some (.elem a (i + n).toNat) else none

/-- `p - q`, a `ptrdiff_t`: for pointers into the same array, or two null pointers. -/
def diff : Ptr → Ptr → Option ℤ
  | .null, .null => some 0
  | .elem a i, .elem b j => if a = b ∧ -2 ^ 63 ≤ (i : ℤ) - j ∧ (i : ℤ) - j < 2 ^ 63 then some (i - j) else none
  | _, _ => none

/-- `p < q`: specified for pointers into the same array, and equal ones. -/
def less : Ptr → Ptr → Option Bool
  | .null, .null => some false
  | .elem a i, .elem b j => if a = b then some (decide (i < j)) else none
  | _, _ => none

end Verif.Spec.ArrayPointers
