import Mathlib.Data.Nat.Notation
/-!
# The types of C++

Types as they are built from named types by qualifiers, pointers, arrays and references (ISO C++17, [basic.types], [dcl.meaning]), as far as the
metafunctions of the library can tell them apart.
-/
namespace Verif.Spec.CppTypes

/-- Named types: `void`, the arithmetic types, enumerations with their underlying type, classes, and the class templates that the library knows. -/
inductive Base where
  | void | bool
  | char | wchar | char8 | char16 | char32
  | schar | short | int | long | llong | int128
  | uchar | ushort | uint | ulong | ullong | uint128
  | half | float16 | fp16 | float | double | ldouble | float128
  | enum (id : ℕ) (strong : Bool) (underlying : Base)
  | cls (id : ℕ)
  | vec (scalar : Base) (n : ℕ)
  | mat (scalar : Base) (rows columns : ℕ)
  | quat (scalar : Base)
  deriving DecidableEq

/-- `const` and `volatile` -/
structure CV where
  c : Bool := false
  v : Bool := false
  deriving DecidableEq

/-- Types. A function type is told by a number for its return type and parameters, by whether it ends in an ellipsis and by whether it is `noexcept`;
so is a pointer to a member function. The qualifiers of an array are those of its elements; a function or a reference has none. -/
inductive Ty where
  | base (q : CV) (b : Base)
  | ptr (q : CV) (t : Ty)
  | memfn (q : CV) (id : ℕ) (ellipsis noex : Bool)
  | arr (t : Ty) (n : Option ℕ)
  | fn (id : ℕ) (ellipsis noex : Bool)
  | lref (t : Ty)
  | rref (t : Ty)
  deriving DecidableEq

/-- no reference, `&`, `&&` -/
inductive Ref where
  | none | l | r
  deriving DecidableEq

/-- The type with these qualifiers in place of its own. -/
def qualify (q : CV) : Ty → Ty
  | .base _ b => .base q b
  | .ptr _ t => .ptr q t
  | .memfn _ i e n => .memfn q i e n
  | .arr t n => .arr (qualify q t) n
  | t => t

/-- The type, or a reference to it; there are no references to `void`. -/
def refer (k : Ref) (t : Ty) : Ty :=
  match k, t with
  | _, .base q .void => .base q .void
  | .none, t => t
  | .l, t => .lref t
  | .r, t => .rref t

/-- A type without qualifiers of its own that is not a reference. -/
def Plain : Ty → Prop
  | .base q _ => q = {}
  | .ptr q _ => q = {}
  | .memfn q _ _ _ => q = {}
  | .arr t _ => Plain t
  | .fn _ _ _ => True
  | .lref _ => False
  | .rref _ => False

/-- The type `p` with the qualifiers `q`, or a reference to that. Every type that exists is one of these (`C167_types`). -/
def make (k : Ref) (q : CV) (p : Ty) : Ty := refer k (qualify q p)

/-- Whether a type can have qualifiers: functions and references cannot. -/
def Qualifiable : Ty → Prop
  | .base _ _ => True
  | .ptr _ _ => True
  | .memfn _ _ _ _ => True
  | .arr t _ => Qualifiable t
  | _ => False

/-- Whether there are references of this kind to a type: there are none to `void`. -/
def Refers (k : Ref) (p : Ty) : Prop := k = .none ∨ ∀ q, p ≠ .base q .void

/-- Types that exist: no references to references or `void`, no pointers to references, no arrays of references or functions. -/
def Formed : Ty → Prop
  | .base _ _ => True
  | .ptr _ t => Formed t ∧ ∀ u, t ≠ .lref u ∧ t ≠ .rref u
  | .memfn _ _ _ _ => True
  | .arr t _ => Formed t ∧ Qualifiable t
  | .fn _ _ _ => True
  | .lref t => Formed t ∧ (∀ u, t ≠ .lref u ∧ t ≠ .rref u) ∧ ∀ q, t ≠ .base q .void
  | .rref t => Formed t ∧ (∀ u, t ≠ .lref u ∧ t ≠ .rref u) ∧ ∀ q, t ≠ .base q .void

/-- What the implementation defines: whether `char` and `wchar_t` are signed, and the size of `wchar_t`. -/
structure Platform where
  charSigned : Bool
  wcharSigned : Bool
  wchar32 : Bool

namespace Base

/-- The integers proper. -/
def Integer (b : Base) : Prop :=
  b ∈ [schar, short, int, long, llong, int128, uchar, ushort, uint, ulong, ullong, uint128]

/-- The types of characters. -/
def Character (b : Base) : Prop := b ∈ [char, wchar, char8, char16, char32]

/-- The floating-point types. -/
def Floating (b : Base) : Prop := b ∈ [half, float16, fp16, float, double, ldouble, float128]

/-- A type that can be underlying. -/
def Whole (b : Base) : Prop := b = bool ∨ b.Character ∨ b.Integer ∧ b ≠ int128 ∧ b ≠ uint128

/-- An enumeration has a standard integral type as its underlying type. -/
def Valid : Base → Prop
  | enum _ _ u => u.Whole
  | _ => True

/-- The type underlying an enumeration; any other type itself. -/
def stored : Base → Base
  | enum _ _ u => u
  | b => b

/-- The arithmetic types with negative numbers. -/
def Negative (P : Platform) (b : Base) : Prop :=
  b ∈ [schar, short, int, long, llong, int128] ∨ b.Floating ∨ b = char ∧ P.charSigned = true ∨ b = wchar ∧ P.wcharSigned = true

/-- The number of bits, with 64-bit `long`. -/
def bits (P : Platform) : Base → ℕ
  | bool | char | schar | uchar | char8 => 8
  | short | ushort | char16 | half | float16 | fp16 => 16
  | wchar => if P.wchar32 then 32 else 16
  | int | uint | char32 | float => 32
  | long | ulong | llong | ullong | double => 64
  | int128 | uint128 | ldouble | float128 => 128
  | _ => 0

end Base

/-- The types that arithmetic is done in ([conv.prom], [expr.arith.conv]), with a 64-bit `long`. -/
inductive Arith where
  | int | uint | long | ulong | llong | ullong | float | double | ldouble
  deriving DecidableEq

namespace Arith

/-- The type as a named type. -/
def type : Arith → Base
  | int => .int | uint => .uint | long => .long | ulong => .ulong | llong => .llong | ullong => .ullong
  | float => .float | double => .double | ldouble => .ldouble

/-- The types that convert to this one when they meet it in a sum. -/
def below : Arith → List Arith
  | int => [int]
  | uint => [int, uint]
  | long => [int, uint, long]
  | ulong => [int, uint, long, ulong]
  | llong => [int, uint, long, llong]
  | ullong => [int, uint, long, ulong, llong, ullong]
  | float => [int, uint, long, ulong, llong, ullong, float]
  | double => [int, uint, long, ulong, llong, ullong, float, double]
  | ldouble => [int, uint, long, ulong, llong, ullong, float, double, ldouble]

/-- `z` is the type of a sum of values of these types: the least to which all of them convert. -/
def IsSum (z : Arith) (l : List Arith) : Prop := (∀ x ∈ l, x ∈ z.below) ∧ ∀ w : Arith, (∀ x ∈ l, x ∈ w.below) → z ∈ w.below

end Arith

/-- The type that a value of a standard arithmetic type is promoted to. -/
def promotion (P : Platform) : Base → Option Arith
  | .bool | .char | .char8 | .char16 | .schar | .short | .uchar | .ushort => some .int
  | .wchar => some (if P.wchar32 && !P.wcharSigned then .uint else .int)
  | .char32 => some .uint
  | .int => some .int | .uint => some .uint | .long => some .long | .ulong => some .ulong | .llong => some .llong | .ullong => some .ullong
  | .float => some .float | .double => some .double | .ldouble => some .ldouble
  | _ => none

end Verif.Spec.CppTypes
