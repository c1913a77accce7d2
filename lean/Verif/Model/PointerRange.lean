import Verif.Spec.ArrayPointers
/-!
# Ranges of pointers

`/repo/include/muu/integral_range.h` for pointer types. `none` is undefined behaviour, an unspecified comparison, or a failed assertion.
The difference of two iterators (lines 143-154) is not here: for pointers it is ill-formed (`static_cast` of a pointer to an integer).
-/
namespace Verif.Model.PointerRange
open Verif.Spec.ArrayPointers

/-- lines 175-179 -/
structure Range where
  s : Ptr
  e : Ptr
  deriving DecidableEq

/-- the constructor with one argument, lines 191-197: `s` is null; the assertion `e >= s` -/
def fromEnd (e : Ptr) : Option Range := do if ← less e .null then none else some ⟨.null, e⟩

/-- the constructor with two arguments, lines 202-207: the assertion `e >= s` -/
def make (s e : Ptr) : Option Range := do if ← less e s then none else some ⟨s, e⟩

/-- `explicit operator bool`, lines 211-214: `e > s` -/
def toBool (r : Range) : Option Bool := less r.s r.e

/-- empty, lines 218-221 -/
def empty (r : Range) : Bool := r.e = r.s

/-- size, lines 225-237 (227-228), converted to `size_t` -/
def size (r : Range) : Option ℕ := do some ((← diff r.e r.s) % 2 ^ 64).toNat

/-- first, lines 241-244 -/
def first (r : Range) : Ptr := r.s

/-- last, lines 248-256: the assertion `e > s`, then `e - 1` -/
def last (mem : Memory) (r : Range) : Option Ptr := do if ← less r.s r.e then add mem r.e (-1) else none

/-- contains a value, lines 260-263: `val >= s && val < e` -/
def contains (r : Range) (val : Ptr) : Option Bool := do if ← less val r.s then some false else less val r.e

/-- contains another range, lines 267-270: `other.s >= s && other.e <= e` -/
def containsRange (r other : Range) : Option Bool := do
  if ← less other.s r.s then some false else do some !(← less r.e other.e)

/-- adjacent, lines 274-277 -/
def adjacent (r other : Range) : Bool := r.s = other.e ∨ other.s = r.e

/-- intersects, lines 281-284: `e > other.s && other.e > s` -/
def intersects (r other : Range) : Option Bool := do if ← less other.s r.e then less r.s other.e else some false

/-- intersects_or_adjacent, lines 288-291: `e >= other.s && other.e >= s` -/
def intersectsOrAdjacent (r other : Range) : Option Bool := do
  if ← less r.e other.s then some false else do some !(← less other.e r.s)

/-- union_with, lines 295-298, with min and max (core_utils.h:49-87) -/
def unionWith (r other : Range) : Option Range := do
  make (if ← less r.s other.s then r.s else other.s) (if ← less r.e other.e then other.e else r.e)

/-- operator++ of the iterator, lines 60-64 -/
def inc (mem : Memory) (p : Ptr) : Option Ptr := add mem p 1

/-- operator--, lines 71-75 -/
def dec (mem : Memory) (p : Ptr) : Option Ptr := add mem p (-1)

/-- `for (auto p : range)`: begin and end, lines 324-334, the comparison, 129-140, and the value, 123-126; with fewer than `fuel` elements -/
def iterate (mem : Memory) (e : Ptr) : ℕ → Ptr → Option (List Ptr)
  | 0, _ => none
  | fuel + 1, p => if p = e then some [] else do
    let rest ← iterate mem e fuel (← inc mem p)
    some (p :: rest)

/-- operator+= and -= with a `size_t` (lines 82-100) or a `ptrdiff_t` (102-120): the same pointer arithmetic -/
def advance (mem : Memory) (p : Ptr) (offset : ℤ) : Option Ptr := add mem p offset
def retreat (mem : Memory) (p : Ptr) (offset : ℤ) : Option Ptr := add mem p (-offset)

end Verif.Model.PointerRange
