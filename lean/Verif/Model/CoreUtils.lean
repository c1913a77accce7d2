import Verif.Model.CInt
/-!
# Model of min, max, clamp, between, gcd, lcm and evenly_distribute

Models `/repo/include/muu/impl/core_utils.h` lines 42–141 and `/repo/include/muu/math.h` lines 2335–2388. The variadic
functions are recursive in the argument pack, modelled as a list.
-/
namespace Verif.Model.CoreUtils
open Verif.Spec.CInt Verif.Model.CInt

section
variable {α : Type} (lt : α → α → Bool)

/-- min of two, core_utils.h line 53 -/
def min2 (a b : α) : α := if lt a b then a else b

/-- min of two or more, core_utils.h lines 49–63 -/
def minN (a b : α) : List α → α
  | [] => min2 lt a b
  | [c, d] => min2 lt (min2 lt a b) (min2 lt c d)
  | c :: l => minN (min2 lt a b) c l

/-- max of two, core_utils.h line 77 -/
def max2 (a b : α) : α := if lt a b then b else a

/-- max of two or more, core_utils.h lines 73–87 -/
def maxN (a b : α) : List α → α
  | [] => max2 lt a b
  | [c, d] => max2 lt (max2 lt a b) (max2 lt c d)
  | c :: l => maxN (max2 lt a b) c l

/-- clamp, core_utils.h lines 97–100 -/
def clamp (v lo hi : α) : α := if lt v lo then lo else if lt hi v then hi else v

end

/-- between, core_utils.h lines 108–141, for integers (enums are unwrapped, lines 112–113); `T` is the type of `v`, `U`
    that of the bounds -/
def between (T U : Ty) (v lo hi : Int) : Bool :=
  if T.signed ∧ ¬ U.signed ∧ v < 0 then false
  else if ¬ T.signed ∧ U.signed ∧ hi < 0 then false
  else if T ≠ U then
    let c := common T U
    conv c lo ≤ conv c v ∧ conv c v ≤ conv c hi
  else lo ≤ v ∧ v ≤ hi

/-- an argument: its type and value -/
abbrev Arg := Ty × Int

/-- std::gcd ([numeric.ops.gcd]): `none` if the absolute value of an argument is not representable in the common type -/
def stdGcd (a b : Arg) : Option Arg :=
  let c := common a.1 b.1
  if (a.2.natAbs : Int) ≤ c.hi ∧ (b.2.natAbs : Int) ≤ c.hi then some (c, Int.gcd a.2 b.2) else none

/-- std::lcm ([numeric.ops.lcm]): `none` if the absolute value of an argument, or the result, is not representable in
    the common type -/
def stdLcm (a b : Arg) : Option Arg :=
  let c := common a.1 b.1
  if (a.2.natAbs : Int) ≤ c.hi ∧ (b.2.natAbs : Int) ≤ c.hi ∧ (Int.lcm a.2 b.2 : Int) ≤ c.hi then some (c, Int.lcm a.2 b.2)
  else none

/-- lcm, math.h lines 2341–2355 (f = std::lcm), and gcd, lines 2363–2377 (f = std::gcd). Simplification: the conversion
    of the result to the common type of all arguments is left out, it does not change the value (lemma common_hi). -/
def variadic (f : Arg → Arg → Option Arg) (a b : Arg) : List Arg → Option Arg
  | [] => f a b
  | [c, d] => match f a b, f c d with
    | some x, some y => f x y
    | _, _ => none
  | c :: l => match f a b with
    | some x => variadic f x c l
    | none => none

/-- evenly_distribute, math.h lines 2382–2388; `none`: division by zero -/
def evenlyDistribute {w : Nat} (total count index : BitVec w) : Option (BitVec w) :=
  if count = 0#w then none
  else
    let val := total / count
    some (if index < total % count then val + 1#w else val)

end Verif.Model.CoreUtils
