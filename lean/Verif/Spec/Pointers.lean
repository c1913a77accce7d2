import Mathlib.Data.Int.ModEq

/-!
# Specification of pointer types, class hierarchies and the conversions C++ allows between them

Addresses have 64 bits and the null pointer is address 0.  Classes are numbered.  Non-virtual, unambiguous, accessible
inheritance: the base subobject is at a fixed offset in every object of the derived class.
-/

namespace Verif.Spec.Pointers

/-- `const` and `volatile`. -/
structure CV where
  const : Bool
  volatile : Bool
  deriving DecidableEq

/-- No qualifiers. -/
def CV.none : CV := ⟨false, false⟩

/-- The second is at least as qualified as the first. -/
def CV.le (a b : CV) : Prop := (a.const = true → b.const = true) ∧ (a.volatile = true → b.volatile = true)

/-- Types a pointer can point to, without their outermost qualifiers.  `obj` stands for all other object types, `func` for
function types. -/
inductive Ty
  | void
  | obj (n : ℕ)
  | cls (n : ℕ)
  | func (signature : ℕ) (noexc : Bool)
  | ptr (cv : CV) (pointee : Ty)
  deriving DecidableEq

/-- Integer types with at least 64 bits, and enumerations over them. -/
structure IntTy where
  signed : Bool
  /-- 128 bits instead of 64. -/
  wide : Bool
  /-- `true` for `intptr_t` and `uintptr_t`, `false` for other types such as `long long`. -/
  isIntptr : Bool
  isEnum : Bool
  deriving DecidableEq

/-- The types of the values converted. -/
inductive Typ
  | null
  | pointer (cv : CV) (pointee : Ty)
  | int (t : IntTy)
  deriving DecidableEq

/-- An address. -/
abbrev Addr := BitVec 64

/-- A pointer or an integer. -/
inductive Value
  | addr (a : Addr)
  | num (z : ℤ)

/-- A class hierarchy. -/
structure Hierarchy where
  /-- `inherits d b`: the class `d` is derived from `b`. -/
  inherits : ℕ → ℕ → Bool
  polymorphic : ℕ → Bool
  /-- Where the base `b` is in every object of class `d`. -/
  offset : ℕ → ℕ → Addr
  /-- `object d b p = some q`: the `b` at address `p` is the base of an object of class `d`, and that is at `q`. -/
  object : ℕ → ℕ → Addr → Option Addr
  antisymm : ∀ d b, inherits d b = true → inherits b d = false
  object_offset : ∀ d b p q, object d b p = some q → p = q + offset d b ∧ q ≠ 0 ∧ p ≠ 0

/-- Functions have no qualifiers. -/
def WellFormed : Typ → Prop
  | .pointer cv (.func _ _) => cv = CV.none
  | .int t => t.isIntptr = true → t.wide = false ∧ t.isEnum = false
  | _ => True

/-- An object type or `void`. -/
def Ty.NotFunction : Ty → Prop
  | .func _ _ => False
  | _ => True

/-- The conversions the documentation of `pointer_cast` promises: pointers to pointers, except between functions with different
signatures and between functions and anything but `void`; pointers to integers and back; `nullptr` to both. -/
def Promised : Typ → Typ → Prop
  | .null, .null => False
  | .null, _ => True
  | _, .null => False
  | .int _, .int _ => False
  | .int _, .pointer _ _ => True
  | .pointer _ _, .int _ => True
  | .pointer _ (.func s _), .pointer _ (.func s' _) => s = s'
  | .pointer _ (.func _ _), .pointer _ t => t = .void
  | .pointer _ t, .pointer _ (.func _ _) => t = .void
  | .pointer _ _, .pointer _ _ => True

/-- The integer is a value of the type. -/
def IntTy.Has (t : IntTy) (z : ℤ) : Prop :=
  if t.signed then -2 ^ (if t.wide then 127 else 63) ≤ z ∧ z < 2 ^ (if t.wide then 127 else 63)
  else 0 ≤ z ∧ z < 2 ^ (if t.wide then 128 else 64)

/-- The integer stands for the address: it is congruent to it modulo 2⁶⁴. -/
def Denotes (z : ℤ) (a : Addr) : Prop := z ≡ a.toNat [ZMOD 2 ^ 64]

end Verif.Spec.Pointers
