import Verif.Model.IntVector
/-!
# Strong typedefs (include/muu/strong_typedef.h)

`muu::strong_typedef<ValueType, Tag, Traits...>` where `ValueType` is an integer type or a reference to one. Values of classes and floating-point values, the trait `callable` and rvalue references to constants are not modelled. The two specialisations of each trait ("pure" and "impure") differ only in attributes and are modelled once.
-/
namespace Verif.Model.StrongTypedef
open Verif.Spec.CInt Verif.Model.IntVector

/-- How `ValueType` is made from the integer type `T`: `T`, `T&`, `const T&` or `T&&`. -/
inductive Kind
  | value | lref | cref | rref
  deriving DecidableEq

/-- `ValueType`. -/
structure ValueType where
  ty : Ty
  kind : Kind

/-- The member `value` (strong_typedef.h:884): an integer, or a reference to the integer at an address. -/
inductive Held
  | val (x : ℤ)
  | ref (a : ℕ)
  deriving DecidableEq

/-- The integers that exist outside of the typedefs, by address. -/
abbrev Mem := ℕ → Option ℤ

/-- What a use of an operator comes to: it does not compile, has undefined behaviour, or has a result. -/
inductive Out (α : Type)
  | rejected
  | undefined
  | ok (a : α)

/-- Reading the member; undefined if it is a reference to an integer that no longer exists. -/
def fetch (m : Mem) : Held → Option ℤ
  | .val x => some x
  | .ref a => m a

/-- Writing to the member, or to the integer it refers to; also writing through the reference the explicit conversion to `ValueType&` returns (strong_typedef.h:361-384). -/
def put (m : Mem) (h : Held) (x : ℤ) : Held × Mem :=
  match h with
  | .val _ => (.val x, m)
  | .ref a => (.ref a, Function.update m a (some x))

/-- The type of `x + y`, `-x` and so on for integers of type `t`, and `T{ r }` for an `r` of that type `p` (strong_typedef.h:545, 557, 575, 586, 612, 624, 641, 652; the constructors at 917-923): list-initialisation does not compile if the conversion to the type of the parameter is narrowing or the parameter is an lvalue reference to a non-constant. A reference to a constant or rvalue reference is bound to a temporary, whose life ends when the operator returns: `temp` is its address. -/
def make (v : ValueType) (p : Ty) (temp : ℕ) (r : Option ℤ) : Out Held :=
  if p ≠ v.ty ∨ v.kind = .lref then .rejected
  else match r with
    | none => .undefined
    | some r => .ok (match v.kind with | .value => .val r | _ => .ref temp)

/-- Binary `+` and `-` (strong_typedef.h:533-559, 600-626). -/
def combine (o : Op) (v : ValueType) (m : Mem) (temp : ℕ) (a b : Held) : Out Held :=
  make v (CInt.promote v.ty) temp (do o.eval (CInt.promote v.ty) (← fetch m a) (← fetch m b))

/-- Unary `+` (strong_typedef.h:561-588). -/
def unaryPlus (v : ValueType) (m : Mem) (temp : ℕ) (a : Held) : Out Held :=
  make v (CInt.promote v.ty) temp (fetch m a)

/-- Unary `-` (strong_typedef.h:628-654). -/
def unaryMinus (v : ValueType) (m : Mem) (temp : ℕ) (a : Held) : Out Held :=
  make v (CInt.promote v.ty) temp (do result (CInt.promote v.ty) (-(← fetch m a)))

/-- Prefix `++` (strong_typedef.h:662-677) and `--` (700-715), which exist if the value can be incremented: not if it is constant. -/
def prefixStep (o : Op) (v : ValueType) (m : Mem) (a : Held) : Out (Held × Mem) :=
  if v.kind = .cref then .rejected
  else match fetch m a with
    | none => .undefined
    | some x => match lane o v.ty x 1 with
      | none => .undefined
      | some y => .ok (put m a y)

/-- Postfix `++` (strong_typedef.h:679-693) and `--` (717-731): the result is made from the former value, of the type of the value. -/
def postfixStep (o : Op) (v : ValueType) (m : Mem) (temp : ℕ) (a : Held) : Out (Held × Held × Mem) :=
  match prefixStep o v m a with
  | .rejected => .rejected
  | .undefined => .undefined
  | .ok (a', m') => match make v v.ty temp (fetch m a) with
    | .rejected => .rejected
    | .undefined => .undefined
    | .ok r => .ok (r, a', m')

/-- The comparisons (strong_typedef.h:49-268); integers have all six operators. -/
inductive Comparison
  | eq | ne | lt | le | gt | ge

/-- The built-in comparisons of integers of one type. -/
def Comparison.eval (x y : ℤ) : Comparison → Bool
  | .eq => x == y
  | .ne => x != y
  | .lt => x < y
  | .le => x ≤ y
  | .gt => x > y
  | .ge => x ≥ y

/-- `lhs.value == rhs.value` and so on (strong_typedef.h:49-268). -/
def relate (c : Comparison) (m : Mem) (a b : Held) : Option Bool := do some (c.eval (← fetch m a) (← fetch m b))

/-- `!=` (strong_typedef.h:78-134) for a value type which may have its own `!=` and may have its own `==`: `none` is a trait without the operator. -/
def notEqual {V : Type} (ne eq : Option (V → V → Bool)) : Option (V → V → Bool) :=
  match ne, eq with
  | some ne, _ => some ne
  | none, some eq => some fun x y => !eq x y
  | none, none => none

/-- `!` (strong_typedef.h:303-357) for a value type which may have its own `!` and may be convertible to bool. -/
def logicalNot {V : Type} (no conv : Option (V → Bool)) : Option (V → Bool) :=
  match no, conv with
  | some no, _ => some no
  | none, some conv => some fun x => !conv x
  | none, none => none

/-- The explicit conversion to bool (strong_typedef.h:276-301). -/
def boolean (m : Mem) (a : Held) : Option Bool := do some ((← fetch m a) != 0)

/-- `pointer + x`, `x + pointer` (strong_typedef.h:391-459) and `pointer - x` (461-492); a pointer is an index into an array of `n` elements. -/
def pointer (o : Op) (n : ℕ) (m : Mem) (p : ℕ) (a : Held) : Option ℕ := do
  let x ← fetch m a
  let q : ℤ := match o with | .sub => p - x | _ => p + x
  if 0 ≤ q ∧ q ≤ n then some q.toNat else none

/-- std::hash of a strong typedef (strong_typedef.h:949-962), over std::hash of the value type. -/
def hashOf (H : ℤ → ℕ) (m : Mem) (a : Held) : Option ℕ := (fetch m a).map H

/-- The copy constructor (strong_typedef.h:890): a copy of an integer, or a reference to the same one; that of an rvalue reference is deleted, for lvalues. -/
def copy (v : ValueType) (a : Held) : Out Held := if v.kind = .rref then .rejected else .ok a

/-- Copy assignment (strong_typedef.h:896): deleted if the member is a reference. -/
def assign (v : ValueType) (b : Held) : Out Held := if v.kind = .value then .ok b else .rejected

end Verif.Model.StrongTypedef
