import Verif.Model.CInt
import Mathlib.Data.Int.Bitwise
import Mathlib.Logic.Function.Basic
/-!
# Operators of flag enumerations

MUU_MAKE_FLAGS, `/repo/include/muu/preprocessor.h:1305-1345`, with the rules of C++17 for enumerations ([dcl.enum]) and conversions to
them ([expr.static.cast]). A value of an enumeration is the integer it converts to. `none` is undefined behaviour.
-/
namespace Verif.Model.Flags
open Verif.Spec.CInt Verif.Model.CInt

/-- The kinds of enumerations: with a fixed underlying integer type (a scoped one without an explicit type has `int`), with the
    underlying type `bool`, and an unscoped one without a fixed type, whose underlying type is `t` and whose values are those of the
    smallest hypothetical integer type `h` that has the enumerators ([dcl.enum]/8). -/
inductive EnumTy where
  | fixed (t : Ty)
  | boolean
  | unfixed (t h : Ty)

/-- The type with the same values: one unsigned bit for `bool`. -/
def EnumTy.values : EnumTy → Ty
  | .fixed t => t
  | .boolean => ⟨1, false⟩
  | .unfixed _ h => h

/-- Widths are positive, and the underlying type has all values of the enumeration ([dcl.enum]/7). -/
def Valid : EnumTy → Prop
  | .fixed t => 0 < t.bits
  | .boolean => True
  | .unfixed t h => 0 < h.bits ∧ 0 < t.bits ∧ ∀ v, h.Has v → t.Has v

/-- The type in which the operators compute: std::underlying_type_t<T> (preprocessor.h:1310, 1331, 1339), promoted. -/
def EnumTy.promoted : EnumTy → Ty
  | .fixed t => promote t
  | .boolean => ⟨32, true⟩
  | .unfixed t _ => promote t

/-- `static_cast<T>` of a value of the promoted type: converted to the underlying type if that is fixed (to `bool`: whether it is not
    zero), else undefined for what is not a value of the enumeration ([expr.static.cast]/10). -/
def EnumTy.cast (e : EnumTy) (x : ℤ) : Option ℤ :=
  match e with
  | .fixed t => some (conv t x)
  | .boolean => some (if x = 0 then 0 else 1)
  | .unfixed _ h => if h.Has x then some x else none

/-- The three operators MUU_MAKE_FLAGS_2 is used with, preprocessor.h:1324-1326. -/
inductive Op where
  | and | or | xor

/-- The built-in operators on two values of the same type, not smaller than `int`. -/
def Op.eval (p : Ty) (a b : ℤ) : Op → ℤ
  | .and => conv p (Int.land a b)
  | .or => conv p (Int.lor a b)
  | .xor => conv p (Int.xor a b)

/-- operator&, |, ^ of two flags, preprocessor.h:1307-1312. -/
def binary (e : EnumTy) (o : Op) (lhs rhs : ℤ) : Option ℤ := e.cast (o.eval e.promoted lhs rhs)

/-- operator&=, |=, ^=, preprocessor.h:1314-1317: `lhs` is the variable it refers to, `vars` the values of all variables; gives the new
    values and the variable the result refers to. -/
def assign (e : EnumTy) (o : Op) (vars : ℕ → ℤ) (lhs : ℕ) (rhs : ℤ) : Option ((ℕ → ℤ) × ℕ) := do
  let v ← binary e o (vars lhs) rhs
  some (Function.update vars lhs v, lhs)

/-- operator~, preprocessor.h:1328-1333. -/
def complement (e : EnumTy) (val : ℤ) : Option ℤ := e.cast (conv e.promoted (Int.lnot val))

/-- operator!, preprocessor.h:1335-1341. -/
def isNone (_e : EnumTy) (val : ℤ) : Bool := decide (val = 0)

end Verif.Model.Flags
