import Verif.Model.HalfEmulated
/-!
# Conversions between `muu::half` and other arithmetic types (include/muu/half.h:173-221, 239-296, 1028-1054)

Where the type is emulated, and where it is native. A floating-point number of another type (`double`, `long double`, `float128_t`) is a `Number`; the conversions between the types of the compiler are IEEE 754's, and conversions of floating-point numbers to integers are those of the language: towards zero, undefined (`none`) if the integer type cannot hold the result.
-/
namespace Verif.Model.HalfConvert
open Verif.Spec.IeeeArith

/-- An integer as a number. -/
def ofInt (n : ℤ) : Number := .fin (decide (n < 0)) (n.natAbs : ℚ)

/-- `half(type val)` for floating-point types where half is emulated (half.h:190-205): through `float`. Also the literal `_f16` (half.h:1036-1040). -/
def fromNumber (x : Number) : BitVec 16 := Half.f32ToU16 (encode32 x)

/-- `half(type val)` for integer types where half is emulated (half.h:190-195, 206-221), and the literal `_f16` (half.h:1049-1053). -/
def fromInt (n : ℤ) : BitVec 16 := Half.f32ToU16 (encode32 (ofInt n))

/-- `half(bool)` (half.h:173-187). -/
def fromBool (b : Bool) : BitVec 16 := Half.ofBool b

/-- `half(type val)` where half is native (half.h:196-221): one conversion of the compiler; the result is a number. -/
def nativeFromNumber (x : Number) : Number := x.round16

/-- `static_cast` of a `float` to an integer type with the values `lo` to `hi`. -/
def truncate (x : Number) (lo hi : ℤ) : Option ℤ :=
  match x with
  | .fin s a =>
    let t := if s then -⌊a⌋ else ⌊a⌋
    if lo ≤ t ∧ t ≤ hi then some t else none
  | _ => none

/-- The explicit conversions to integer types (half.h:266-296), through `float`; emulated (half.h:257-264). `none` outside: the loop of the conversion to `float` does not end. -/
def toInt (v : BitVec 16) (lo hi : ℤ) : Option (Option ℤ) :=
  (Half.u16ToF32 v).map fun x => truncate (value32 x) lo hi

/-- The same where half is native; the conversion to `float` is the compiler's. -/
def nativeToInt (x : Number) (lo hi : ℤ) : Option ℤ := truncate x.round32 lo hi

/-- The conversions to wider floating-point types (half.h:275-279), through `float`; emulated. -/
def toWide (v : BitVec 16) : Option Number := (Half.u16ToF32 v).map value32

end Verif.Model.HalfConvert
