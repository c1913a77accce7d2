import Verif.Spec.IntegralRange
import Verif.Model.CoreUtils
/-!
# Model of integral_range

Models `/repo/include/muu/integral_range.h` for integer types of at most 64 bits (enums and pointers are not modelled),
so that size_type is the unsigned and difference_type the signed 64-bit type (lines 26–45). `none` is undefined
behaviour (signed overflow).
-/
namespace Verif.Model.IntegralRange
open Verif.Spec.CInt Verif.Spec.IntegralRange Verif.Model.CInt Verif.Model.CoreUtils

def sizeTy : Ty := ⟨64, false⟩
def diffTy : Ty := ⟨64, true⟩

/-- `explicit operator bool`, lines 211–214 -/
def toBool (r : Range) : Bool := r.e > r.s

/-- empty, lines 218–221 -/
def empty (r : Range) : Bool := r.e = r.s

/-- a signed 64-bit result -/
def signed64 (x : Int) : Option Int := if diffTy.Has x then some x else none

/-- size, lines 225–237 -/
def size (t : Ty) (r : Range) : Option Int :=
  if t.signed then (signed64 (conv diffTy r.e - conv diffTy r.s)).map (conv sizeTy)
  else some (conv sizeTy (conv sizeTy r.e - conv sizeTy r.s))

/-- first, lines 241–244 -/
def first (r : Range) : Int := r.s

/-- last, lines 248–256; `none` if the assertion fails -/
def last (t : Ty) (r : Range) : Option Int := if r.e > r.s then some (conv t (r.e - 1)) else none

/-- contains a value, lines 260–263 -/
def contains (r : Range) (v : Int) : Bool := v ≥ r.s ∧ v < r.e

/-- contains another range, lines 267–270 -/
def containsRange (r other : Range) : Bool := other.s ≥ r.s ∧ other.e ≤ r.e

/-- adjacent, lines 274–277 -/
def adjacent (r other : Range) : Bool := r.s = other.e ∨ other.s = r.e

/-- intersects, lines 281–284 -/
def intersects (r other : Range) : Bool := r.e > other.s ∧ other.e > r.s

/-- intersects_or_adjacent, lines 288–291 -/
def intersectsOrAdjacent (r other : Range) : Bool := r.e ≥ other.s ∧ other.e ≥ r.s

/-- union_with, lines 295–298 -/
def unionWith (r other : Range) : Range :=
  ⟨min2 (fun a b : Int => a < b) r.s other.s, max2 (fun a b : Int => a < b) r.e other.e⟩

/-- operator==, lines 305–308 -/
def beq (r other : Range) : Bool := r.s = other.s ∧ r.e = other.e

/-- operator++ of the iterator, lines 60–64, on type `t`: a type narrower than int is promoted, so only the others
    can overflow -/
def inc (t : Ty) (v : Int) : Option Int := if t.signed ∧ ¬ t.Has (v + 1) ∧ t.bits ≥ 32 then none else some (conv t (v + 1))

/-- a loop over the range: `for (auto v : range)`, begin() and end() lines 324–334, iterator comparison lines 129–140,
    dereferencing lines 123–126; with at most `fuel` elements -/
def iterate (t : Ty) (e : Int) : Nat → Int → Option (List Int)
  | 0, _ => none
  | fuel + 1, v =>
    if v = e then some []
    else match inc t v with
      | none => none
      | some v' => (iterate t e fuel v').map (v :: ·)

/-- iterator + size_type offset, lines 82–90 -/
def advance (t : Ty) (v offset : Int) : Int := conv t (conv sizeTy (conv sizeTy v + offset))

/-- iterator - size_type offset, lines 92–100 -/
def retreat (t : Ty) (v offset : Int) : Int := conv t (conv sizeTy (conv sizeTy v - offset))

/-- iterator + difference_type offset, lines 102–110 -/
def advanceSigned (t : Ty) (v offset : Int) : Option Int := (signed64 (conv diffTy v + offset)).map (conv t)

/-- iterator - difference_type offset, lines 112–120 -/
def retreatSigned (t : Ty) (v offset : Int) : Option Int := (signed64 (conv diffTy v - offset)).map (conv t)

/-- iterator - iterator, lines 143–154 -/
def distance (t : Ty) (l r : Int) : Option Int :=
  if ¬ t.signed ∧ r > l then signed64 (-(conv diffTy (conv sizeTy (conv sizeTy r - conv sizeTy l))))
  else signed64 (conv diffTy l - conv diffTy r)

end Verif.Model.IntegralRange
