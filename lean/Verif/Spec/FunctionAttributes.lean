/-!
# The attributes of a function type

What may follow the parameters of a function in its type, and the calling convention before them.
-/

namespace Verif.Spec.FunctionAttributes

/-- Calling conventions; `unspecified` writes none. -/
inductive Convention where
  | unspecified | cdecl | vectorcall | stdcall | fastcall | thiscall
  deriving DecidableEq, Repr

/-- Qualifiers `const` and `volatile`. -/
structure Cv where
  isConst : Bool
  isVolatile : Bool
  deriving DecidableEq, Repr

/-- Reference qualifiers: nothing, `&` or `&&`. -/
inductive Ref where
  | none | lvalue | rvalue
  deriving DecidableEq, Repr

/-- The attributes of a function. -/
structure Attributes where
  convention : Convention
  cv : Cv
  ref : Ref
  noexcept : Bool
  deriving DecidableEq, Repr

/-- The platforms which differ in calling conventions: Windows on x86-64, other Windows, and the rest. -/
inductive Platform where
  | win64 | win32 | other
  deriving DecidableEq, Repr

/-- Calling conventions of functions which are not members, on a platform. -/
def Free : Platform → Convention → Prop
  | .win64, c => c = .cdecl ∨ c = .vectorcall
  | .win32, c => c = .cdecl ∨ c = .vectorcall ∨ c = .stdcall ∨ c = .fastcall
  | .other, c => c = .unspecified

/-- Calling conventions of member functions: on 32-bit Windows, also `__thiscall`. -/
def Member : Platform → Convention → Prop
  | .win64, c => c = .cdecl ∨ c = .vectorcall
  | .win32, c => c = .cdecl ∨ c = .vectorcall ∨ c = .stdcall ∨ c = .fastcall ∨ c = .thiscall
  | .other, c => c = .unspecified

/-- Each combination of the attributes for which `ok` holds is in the list exactly once, and nothing else is. -/
def ExactlyOnce (l : List Attributes) (ok : Attributes → Prop) : Prop :=
  l.Nodup ∧ ∀ a, a ∈ l ↔ ok a

end Verif.Spec.FunctionAttributes
