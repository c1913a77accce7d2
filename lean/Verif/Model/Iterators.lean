import Mathlib.Data.Nat.Notation
import Mathlib.Data.Int.Notation
/-!
# The iterators of iterable objects and their distance (include/muu/iterators.h)

What is asked of types is given by Booleans; pointers into an array are indices of its elements.
-/
namespace Verif.Model.Iterators

/-- What is asked of the type of an iterable object: is it an array with a bound (meta.h:1466); does it have members `begin()` and `end()` (meta.h:1770-1774); do `std::begin` and `std::end` (1781-1785) or `begin` and `end` found by argument-dependent lookup (1792-1796) take it; in each case with results that are iterators and can be compared. -/
structure Asked where
  boundedArray : Bool
  members : Bool
  std : Bool
  adl : Bool

/-- is_iterable (meta.h:1965-1968). -/
def isIterable (t : Asked) : Bool := t.members || t.std || t.adl || t.boundedArray

/-- Where the iterators come from. -/
inductive Source
  | array | members | free
  deriving DecidableEq

/-- begin_iterator (iterators.h:37-56) and end_iterator (74-93), which choose alike; `none` is the failed static_assert. `free` are the functions `begin` and `end` that `using std::begin; begin(obj)` finds. -/
def source (t : Asked) : Option Source :=
  if t.boundedArray then some .array
  else if t.members then some .members
  else if isIterable t then some .free
  else none

/-- begin_iterator of an array (iterators.h:44-45): the pointer to its first element. -/
def arrayBegin : ℕ := 0

/-- end_iterator of an array of `n` elements of `size` bytes (iterators.h:81-82): `sizeof(T) / sizeof(element_type)` elements further. -/
def arrayEnd (n size : ℕ) : ℕ := arrayBegin + (n * size) / size

/-- std::distance of iterators which are not random-access: the number of increments from `b` to `e`. `fuel` bounds the number of increments, for termination; `none`: `e` is not reached within it. -/
def stdDistance {P : Type} [DecidableEq P] (next : P → P) : ℕ → P → P → Option ℤ
  | 0, b, e => if b = e then some 0 else none
  | n + 1, b, e => if b = e then some 0 else (stdDistance next n (next b) e).map (1 + ·)

/-- iterator_distance (iterators.h:101-115): `minus` is the subtraction, if the iterators have one, and whether its result is an integer. -/
def distance {P : Type} [DecidableEq P] (next : P → P) (minus : Option (Bool × (P → P → ℤ))) (fuel : ℕ) (b e : P) : Option ℤ :=
  match minus with
  | some (true, sub) => some (sub e b)
  | some (false, _) => stdDistance next fuel b e
  | none => stdDistance next fuel b e

end Verif.Model.Iterators
