import Verif.Spec.CInt
import Mathlib.Data.Nat.Notation
import Mathlib.Algebra.Order.Field.Power
import Mathlib.Algebra.Order.Ring.Rat
import Mathlib.Data.Rat.Floor
/-!
# Lists of components

What the documentation of a vector's constructors says of its components, and the numbers they may be.
-/
namespace Verif.Spec.Parts
open Verif.Spec.CInt

/-- The given components, then as many zeros as the vector has dimensions left. -/
def padded {α : Type} (zero : α) (n : ℕ) (given : List α) : List α := given ++ List.replicate (n - given.length) zero

/-- `r` is the number of type `t` that differs from `x` by a multiple of the number of values of the type. -/
def Reduced (t : Ty) (x r : ℤ) : Prop := t.Has r ∧ (2 ^ t.bits : ℤ) ∣ x - r

/-- A scalar: a finite number, an infinity or not a number. -/
inductive Num where
  | fin (q : ℚ)
  | inf (negative : Bool)
  | nan
  deriving DecidableEq

/-- Two scalars are the same number. -/
def Num.Same : Num → Num → Prop
  | .fin a, .fin b => a = b
  | .inf a, .inf b => a = b
  | _, _ => False

/-- A type of scalars: an integer type, or a floating-point type by its number of significant bits (11 for `half`, 24 for `float`,
53 for `double`, 64 or 113 for `long double`). -/
inductive Kind where
  | int (t : Ty)
  | float (p : ℕ)
  deriving DecidableEq

/-- `x` is a value of type `k` (the range of the exponents of floating-point types is not considered). -/
def Kind.Has : Kind → Num → Prop
  | .int t, .fin q => ∃ i : ℤ, t.Has i ∧ q = i
  | .int _, _ => False
  | .float p, .fin q => ∃ m k : ℤ, |m| ≤ 2 ^ p ∧ q = m * 2 ^ k
  | .float _, _ => True

end Verif.Spec.Parts
