import Verif.Spec.CppTypes
/-!
# Metafunctions on types

`/repo/include/muu/meta.h`, with `MUU_HAS_CHAR8`, `MUU_HAS_INT128`, `MUU_HAS_FLOAT128`, `MUU_HAS_FLOAT16` and `MUU_HAS_FP16`; where a compiler does not
have one of these types, nothing is asked about it. The metafunctions of the standard library that are used are modelled as ISO C++17 describes them
([meta.type.synop]), for the standard types only.
-/
namespace Verif.Model.Meta
open Verif.Spec.CppTypes

/-! ## The standard library -/

/-- std::remove_reference_t -/
def removeReference : Ty → Ty
  | .lref t => t
  | .rref t => t
  | t => t

/-- std::add_lvalue_reference_t: references collapse, `void` has none. -/
def addLvalueReference : Ty → Ty
  | .base q .void => .base q .void
  | .lref t => .lref t
  | .rref t => .lref t
  | t => .lref t

/-- std::add_rvalue_reference_t: references collapse, `void` has none. -/
def addRvalueReference : Ty → Ty
  | .base q .void => .base q .void
  | .lref t => .lref t
  | .rref t => .rref t
  | t => .rref t

/-- Changes the qualifiers of a type, if it can have any. -/
def mapCV (g : CV → CV) : Ty → Ty
  | .base q b => .base (g q) b
  | .ptr q t => .ptr (g q) t
  | .memfn q i e n => .memfn (g q) i e n
  | .arr t n => .arr (mapCV g t) n
  | t => t

/-- std::add_const_t -/
def stdAddConst : Ty → Ty := mapCV fun q => { q with c := true }
/-- std::remove_const_t -/
def stdRemoveConst : Ty → Ty := mapCV fun q => { q with c := false }
/-- std::add_volatile_t -/
def stdAddVolatile : Ty → Ty := mapCV fun q => { q with v := true }
/-- std::remove_volatile_t -/
def stdRemoveVolatile : Ty → Ty := mapCV fun q => { q with v := false }

/-- The qualifiers of a type: those of the elements of an array. -/
def cvOf : Ty → CV
  | .base q _ => q
  | .ptr q _ => q
  | .memfn q _ _ _ => q
  | .arr t _ => cvOf t
  | _ => {}

/-- std::is_const_v -/
def stdIsConst (t : Ty) : Bool := (cvOf t).c
/-- std::is_volatile_v -/
def stdIsVolatile (t : Ty) : Bool := (cvOf t).v

/-- std::is_reference_v -/
def isReference : Ty → Bool
  | .lref _ => true
  | .rref _ => true
  | _ => false

/-- std::is_pointer_v -/
def isPointer : Ty → Bool
  | .ptr _ _ => true
  | _ => false

/-- std::remove_pointer_t -/
def removePointer : Ty → Ty
  | .ptr _ t => t
  | t => t

/-- std::add_pointer_t -/
def addPointer (t : Ty) : Ty := .ptr {} (removeReference t)

/-- std::is_enum_v -/
def stdIsEnum : Ty → Bool
  | .base _ (.enum _ _ _) => true
  | _ => false

/-- std::is_integral_v of a named type. -/
def stdIntegral : Base → Bool
  | .bool | .char | .wchar | .char8 | .char16 | .char32 | .schar | .short | .int | .long | .llong | .uchar | .ushort | .uint | .ulong | .ullong => true
  | _ => false

/-- std::is_floating_point_v of a named type. -/
def stdFloating : Base → Bool
  | .float | .double | .ldouble => true
  | _ => false

/-- std::is_signed_v of a named type. -/
def stdSigned (P : Platform) : Base → Bool
  | .schar | .short | .int | .long | .llong | .float | .double | .ldouble => true
  | .char => P.charSigned
  | .wchar => P.wcharSigned
  | _ => false

/-- std::is_unsigned_v of a named type. -/
def stdUnsigned (P : Platform) (b : Base) : Bool := stdIntegral b && !stdSigned P b

/-- A trait of named types, for types; it does not depend on qualifiers. -/
def named (f : Base → Bool) : Ty → Bool
  | .base _ b => f b
  | _ => false

/-- std::is_function_v -/
def stdIsFunction : Ty → Bool
  | .fn _ _ _ => true
  | _ => false

/-! ## Integers of a size -/

/-- uint_for_bits_impl, meta.h:70-88: `none`, the function returns `void`, which has no member `type`. -/
def unsignedInteger (bits : ℕ) : Option Base :=
  if bits = 8 then some .uchar
  else if bits = 16 then some .ushort
  else if bits = 32 then some .uint
  else if bits = 64 then some .ulong
  else if bits = 64 then some .ullong
  else if bits = 128 then some .uint128
  else none

/-- sint_for_bits_impl, meta.h:102-119. -/
def signedInteger (bits : ℕ) : Option Base :=
  if bits = 8 then some .schar
  else if bits = 16 then some .short
  else if bits = 32 then some .int
  else if bits = 64 then some .long
  else if bits = 64 then some .llong
  else if bits = 128 then some .int128
  else none

/-! ## Qualifiers and references -/

/-- remove_cvref, meta.h:38. -/
def removeCvref (t : Ty) : Ty := stdRemoveVolatile (stdRemoveConst (removeReference t))

/-- rebase_ref_, meta.h:134-148. -/
def rebaseRef (t u : Ty) : Ty :=
  match t with
  | .lref _ => addLvalueReference u
  | .rref _ => addRvalueReference u
  | _ => u

/-- copy_ref_, meta.h:150-164; copy_ref, 1363-1364. -/
def copyRef (t from' : Ty) : Ty :=
  match from' with
  | .lref _ => addLvalueReference (removeReference t)
  | .rref _ => addRvalueReference (removeReference t)
  | _ => removeReference t

/-- is_const, meta.h:1252. -/
def isConst (t : Ty) : Bool := stdIsConst (removeReference t)
/-- is_volatile, meta.h:1284. -/
def isVolatile (t : Ty) : Bool := stdIsVolatile (removeReference t)
/-- is_cv, meta.h:1338. -/
def isCv (t : Ty) : Bool := stdIsConst t || stdIsVolatile t
/-- is_cvref, meta.h:1351. -/
def isCvref (t : Ty) : Bool := stdIsConst t || stdIsVolatile t || isReference t
/-- any_cv, meta.h:1340-1342, with MUU_ANY_VARIADIC_T, 24. -/
def anyCv (ts : List Ty) : Bool := ts.any isCv

/-- add_const, meta.h:1264. -/
def addConst (t : Ty) : Ty := rebaseRef t (stdAddConst (removeReference t))
/-- remove_const, meta.h:1268. -/
def removeConst (t : Ty) : Ty := rebaseRef t (stdRemoveConst (removeReference t))
/-- set_const, meta.h:1272. -/
def setConst (t : Ty) (b : Bool) : Ty := if b then addConst t else removeConst t
/-- conditionally_add_const, meta.h:1276. -/
def conditionallyAddConst (t : Ty) (b : Bool) : Ty := if b then addConst t else t
/-- copy_const, meta.h:1280. -/
def copyConst (t from' : Ty) : Ty := setConst t (isConst from')
/-- add_volatile, meta.h:1296. -/
def addVolatile (t : Ty) : Ty := rebaseRef t (stdAddVolatile (removeReference t))
/-- remove_volatile, meta.h:1300. -/
def removeVolatile (t : Ty) : Ty := rebaseRef t (stdRemoveVolatile (removeReference t))
/-- set_volatile, meta.h:1304. -/
def setVolatile (t : Ty) (b : Bool) : Ty := if b then addVolatile t else removeVolatile t
/-- conditionally_add_volatile, meta.h:1308. -/
def conditionallyAddVolatile (t : Ty) (b : Bool) : Ty := if b then addVolatile t else t
/-- copy_volatile, meta.h:1312. -/
def copyVolatile (t from' : Ty) : Ty := setVolatile t (isVolatile from')
/-- add_cv, meta.h:1315-1317. -/
def addCv (t : Ty) : Ty := rebaseRef t (stdAddVolatile (stdAddConst (removeReference t)))
/-- remove_cv, meta.h:1320-1322. -/
def removeCv (t : Ty) : Ty := rebaseRef t (stdRemoveVolatile (stdRemoveConst (removeReference t)))
/-- set_cv, meta.h:1326. -/
def setCv (t : Ty) (b : Bool) : Ty := if b then addCv t else removeCv t
/-- conditionally_add_cv, meta.h:1330. -/
def conditionallyAddCv (t : Ty) (b : Bool) : Ty := if b then addCv t else t
/-- copy_cv, meta.h:1334. -/
def copyCv (t from' : Ty) : Ty := copyConst (copyVolatile t from') from'
/-- copy_cvref, meta.h:1368. -/
def copyCvref (t from' : Ty) : Ty := copyRef (copyCv (removeReference t) (removeReference from')) from'
/-- make_cref, meta.h:1372. -/
def makeCref (t : Ty) : Ty := addLvalueReference (stdAddConst (removeCvref t))

/-- remove_lvalue_reference_, meta.h:745-754; remove_lvalue_reference, 809. -/
def removeLvalueReference : Ty → Ty
  | .lref t => t
  | t => t

/-- remove_rvalue_reference_, meta.h:734-743; remove_rvalue_reference, 813. -/
def removeRvalueReference : Ty → Ty
  | .rref t => t
  | t => t

/-! ## Enumerations -/

/-- is_enum, meta.h:1029. -/
def isEnum (t : Ty) : Bool := stdIsEnum (removeReference t)

/-- remove_enum_, meta.h:762-786, for a type that is not a reference: the specialisations for qualifiers, or the primary template, which takes the
underlying type. -/
def removeEnumObject : Ty → Ty
  | .base ⟨true, true⟩ (.enum _ _ u) => stdAddConst (stdAddVolatile (.base {} u))
  | .base ⟨false, true⟩ (.enum _ _ u) => stdAddVolatile (.base {} u)
  | .base ⟨true, false⟩ (.enum _ _ u) => stdAddConst (.base {} u)
  | .base ⟨false, false⟩ (.enum _ _ u) => .base {} u
  | t => t

/-- remove_enum, meta.h:762-804. -/
def removeEnum (t : Ty) : Ty :=
  if isEnum t then
    match t with
    | .lref u => addLvalueReference (removeEnumObject u)
    | .rref u => addRvalueReference (removeEnumObject u)
    | u => removeEnumObject u
  else t

/-- is_scoped_enum, meta.h:1042-1043: an enumeration is convertible to its underlying type unless it is scoped. -/
def isScopedEnum (t : Ty) : Bool :=
  isEnum t && (match removeCvref t with
    | .base _ (.enum _ strong _) => strong
    | _ => false)

/-- is_legacy_enum, meta.h:1055-1056. -/
def isLegacyEnum (t : Ty) : Bool :=
  isEnum t && (match removeCvref t with
    | .base _ (.enum _ strong _) => !strong
    | _ => true)

/-! ## Numbers -/

/-- is_unsigned, meta.h:1071-1077. -/
def isUnsigned (P : Platform) (t : Ty) : Bool := named (stdUnsigned P) (removeEnum (removeCvref t)) || removeEnum (removeCvref t) = .base {} .uint128

/-- is_signed, meta.h:1095-1109. -/
def isSigned (P : Platform) (t : Ty) : Bool :=
  named (stdSigned P) (removeEnum (removeCvref t)) ||
    [Ty.base {} .int128, .base {} .float128, .base {} .float16, .base {} .fp16, .base {} .half].contains (removeEnum (removeCvref t))

/-- is_integral, meta.h:1126-1132. -/
def isIntegral (t : Ty) : Bool :=
  named stdIntegral (removeEnum (removeCvref t)) || [Ty.base {} .int128, .base {} .uint128].contains (removeEnum (removeCvref t))

/-- is_integer, meta.h:1151-1165. -/
def isInteger (t : Ty) : Bool :=
  [Ty.base {} .int128, .base {} .uint128, .base {} .schar, .base {} .short, .base {} .int, .base {} .long, .base {} .llong, .base {} .uchar,
    .base {} .ushort, .base {} .uint, .base {} .ulong, .base {} .ullong].contains (removeCvref t)

/-- is_floating_point, meta.h:1183-1194. -/
def isFloatingPoint (t : Ty) : Bool :=
  named stdFloating (removeReference t) || [Ty.base {} .float128, .base {} .float16, .base {} .fp16, .base {} .half].contains (removeCvref t)

/-- is_standard_arithmetic, meta.h:1210. -/
def isStandardArithmetic (t : Ty) : Bool := named (fun b => stdIntegral b || stdFloating b) (removeReference t)

/-- is_extended_arithmetic, meta.h:1216-1230. -/
def isExtendedArithmetic (t : Ty) : Bool :=
  [Ty.base {} .int128, .base {} .uint128, .base {} .float128, .base {} .float16, .base {} .fp16, .base {} .half].contains (removeCvref t)

/-- is_arithmetic, meta.h:1236. -/
def isArithmetic (t : Ty) : Bool := isStandardArithmetic t || isExtendedArithmetic t

/-- is_code_unit, meta.h:1427-1434. -/
def isCodeUnit (t : Ty) : Bool := [Ty.base {} .char8, .base {} .char, .base {} .wchar, .base {} .char16, .base {} .char32].contains (removeCvref t)

/-- make_signed_ of a type without qualifiers, meta.h:297-301, 327-455. -/
def signedBase (P : Platform) : Base → Base
  | .char => .schar
  | .schar => .schar
  | .uchar => .schar
  | .short => .short
  | .ushort => .short
  | .int => .int
  | .uint => .int
  | .long => .long
  | .ulong => .long
  | .llong => .llong
  | .ullong => .llong
  | .half => .half
  | .float => .float
  | .double => .double
  | .ldouble => .ldouble
  | .int128 => .int128
  | .uint128 => .int128
  | .float128 => .float128
  | .float16 => .float16
  | .fp16 => .fp16
  | .wchar => if P.wcharSigned then .wchar else (signedInteger (if P.wchar32 then 32 else 16)).getD .void
  | .vec s n => .vec (signedBase P s) n
  | .quat s => .quat s
  | .mat s r c => .mat (signedBase P s) r c
  | _ => .void

/-- make_unsigned_ of a type without qualifiers, meta.h:457-461, 487-586. -/
def unsignedBase (P : Platform) : Base → Base
  | .char => .uchar
  | .schar => .uchar
  | .uchar => .uchar
  | .short => .ushort
  | .ushort => .ushort
  | .int => .uint
  | .uint => .uint
  | .long => .ulong
  | .ulong => .ulong
  | .llong => .ullong
  | .ullong => .ullong
  | .char32 => .char32
  | .char16 => .char16
  | .char8 => .char8
  | .int128 => .uint128
  | .uint128 => .uint128
  | .wchar => if P.wcharSigned then (unsignedInteger (if P.wchar32 then 32 else 16)).getD .void else .wchar
  | .vec s n => .vec (unsignedBase P s) n
  | .mat s r c => .mat (unsignedBase P s) r c
  | _ => .void

/-- make_signed_ and make_unsigned_ of a type that is not a reference: the specialisations for qualifiers (meta.h:302-316, 462-476), then the type without
them; `void` if it is not a named type. -/
def signObject (f : Base → Base) (t : Ty) : Ty :=
  let plain := match t with
    | .base _ b => f b
    | _ => .void
  .base (cvOf t) plain

/-- make_signed_ and make_unsigned_: the specialisations for references (meta.h:317-326, 477-486). -/
def sign (f : Base → Base) : Ty → Ty
  | .lref t => addLvalueReference (signObject f t)
  | .rref t => addRvalueReference (signObject f t)
  | t => signObject f t

/-- make_signed, meta.h:1397. -/
def makeSigned (P : Platform) : Ty → Ty := sign (signedBase P)
/-- make_unsigned, meta.h:1402. -/
def makeUnsigned (P : Platform) : Ty → Ty := sign (unsignedBase P)
/-- set_signed, meta.h:1406. -/
def setSigned (P : Platform) (t : Ty) (b : Bool) : Ty := if b then makeSigned P t else makeUnsigned P t
/-- copy_signed, meta.h:1410. -/
def copySigned (P : Platform) (t from' : Ty) : Ty := setSigned P t (isSigned P from')
/-- set_unsigned, meta.h:1414. -/
def setUnsigned (P : Platform) (t : Ty) (b : Bool) : Ty := if b then makeUnsigned P t else makeSigned P t
/-- copy_unsigned, meta.h:1418. -/
def copyUnsigned (P : Platform) (t from' : Ty) : Ty := setUnsigned P t (isUnsigned P from')

/-! ## Pointers, arrays and functions -/

/-- rebase_pointer_ of a type that is not a reference, meta.h:166-185: the specialisations are for pointers without qualifiers of their own; `none`: the
static_assert fails. -/
def rebasePointerObject (t u : Ty) : Option Ty :=
  match t with
  | .ptr ⟨false, false⟩ p =>
    if stdIsConst p && stdIsVolatile p then some (addPointer (stdAddConst (stdAddVolatile u)))
    else if stdIsVolatile p then some (addPointer (stdAddVolatile u))
    else if stdIsConst p then some (addPointer (stdAddConst u))
    else some (addPointer u)
  | .ptr _ _ => some (addPointer u)
  | _ => none

/-- rebase_pointer, meta.h:166-195, 1392. -/
def rebasePointer (t u : Ty) : Option Ty :=
  match t with
  | .lref t => (rebasePointerObject t u).map addLvalueReference
  | .rref t => (rebasePointerObject t u).map addRvalueReference
  | t => rebasePointerObject t u

/-- pointer_rank_, meta.h:670-679; pointer_rank, 1444. -/
def pointerRank : Ty → ℕ
  | .ptr _ t => 1 + pointerRank t
  | _ => 0

/-- remove_all_pointers_, meta.h:681-697; remove_all_pointers, 1448. -/
def removeAllPointers : Ty → Ty
  | .ptr _ t => removeAllPointers t
  | t => t

/-- is_unbounded_array, meta.h:727-732, 1453. -/
def isUnboundedArray (t : Ty) : Bool :=
  match removeReference t with
  | .arr _ none => true
  | _ => false

/-- is_bounded_array, meta.h:720-725, 1466. -/
def isBoundedArray (t : Ty) : Bool :=
  match removeReference t with
  | .arr _ (some _) => true
  | _ => false

/-- is_array, meta.h:1478. -/
def isArray (t : Ty) : Bool := isUnboundedArray t || isBoundedArray t
/-- is_function, meta.h:1490. -/
def isFunction (t : Ty) : Bool := stdIsFunction (removeCvref t)
/-- is_function_pointer, meta.h:1502-1503. -/
def isFunctionPointer (t : Ty) : Bool := isPointer (removeReference t) && isFunction (removePointer (removeReference t))

/-- add_noexcept_, meta.h:1570-1604: the specialisations have no ellipsis. -/
def addNoexceptCore : Ty → Ty
  | .fn i false false => .fn i false true
  | .ptr ⟨false, false⟩ (.fn i false false) => .ptr {} (.fn i false true)
  | .memfn ⟨false, false⟩ i false false => .memfn {} i false true
  | t => t

/-- add_noexcept, meta.h:1611. -/
def addNoexcept (t : Ty) : Ty := copyCvref (addNoexceptCore (removeCvref t)) t

/-- remove_noexcept_, meta.h:1617-1651. -/
def removeNoexceptCore : Ty → Ty
  | .fn i false true => .fn i false false
  | .ptr ⟨false, false⟩ (.fn i false true) => .ptr {} (.fn i false false)
  | .memfn ⟨false, false⟩ i false true => .memfn {} i false false
  | t => t

/-- remove_noexcept, meta.h:1658. -/
def removeNoexcept (t : Ty) : Ty := copyCvref (removeNoexceptCore (removeCvref t)) t

/-! ## The highest-ranked type -/

/-- The type of `T{} + U{}` for standard arithmetic types: integral promotions ([conv.prom]) of types smaller than `int`, to `int` or `unsigned`. -/
def promote (P : Platform) : Base → Base
  | .bool | .char | .schar | .uchar | .short | .ushort | .char8 | .char16 => .int
  | .char32 => .uint
  | .wchar => if P.wchar32 && !P.wcharSigned then .uint else .int
  | b => b

/-- The order of the types that promotion gives, and the type of a sum of two of them ([expr.arith.conv]): a floating-point type if there is one,
otherwise the type of the higher rank, or its unsigned version if the other is unsigned and does not fit. -/
def rank : Base → ℕ
  | .int => 0 | .uint => 1 | .long => 2 | .ulong => 3 | .llong => 4 | .ullong => 5 | .float => 6 | .double => 7 | .ldouble => 8 | _ => 9

/-- The type of a sum, after promotion: with a 64-bit `long`, `unsigned long` and `long long` give `unsigned long long`. -/
def common (a b : Base) : Base :=
  match a, b with
  | .ulong, .llong => .ullong
  | .llong, .ulong => .ullong
  | a, b => if rank a < rank b then b else a

/-- highest_ranked_ of two types, meta.h:595-614, 620-636: the same type twice, one of them `void`, the specialisations and the type of the sum; `none`:
`void` twice, for which several specialisations fit. For the standard arithmetic types,
`void`, and `half` with floating-point types; sums of other types are not modelled. -/
def highest2 (P : Platform) (a b : Base) : Option Base :=
  if a = .void ∧ b = .void then none
  else if a = b then some a
  else if a = .void then some b
  else if b = .void then some a
  else match a, b with
    | .schar, .short | .short, .schar => some .short
    | .uchar, .ushort | .ushort, .uchar => some .ushort
    | .uchar, .short | .short, .uchar => some .short
    | .half, .float | .float, .half => some .float
    | .half, .double | .double, .half => some .double
    | .half, .ldouble | .ldouble, .half => some .ldouble
    | a, b => some (common (promote P a) (promote P b))

/-- highest_ranked_, meta.h:588-594, 615-619, 662-663, for types without qualifiers. -/
def highestRanked (P : Platform) : List Base → Option Base
  | [] => none
  | [a] => some a
  | [a, b] => highest2 P a b
  | a :: b :: c :: l => do highest2 P a (← highestRanked P (b :: c :: l))

end Verif.Model.Meta
