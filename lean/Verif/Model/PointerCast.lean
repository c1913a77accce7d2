import Verif.Spec.Pointers

/-!
# Model of `pointer_cast` (`include/muu/pointer_cast.h`)

The function chooses its conversions at compile time.  The model computes the list of C++ casts chosen (`pointerCast`), the
rules of C++ for each of them (`legal`), and their effect on a value (`run`).  The `IUnknown` branch (Windows) is not modelled;
arrays (273-290) decay to pointers first.
-/

namespace Verif.Model.PointerCast

open Verif.Spec.Pointers

/-- The kinds of casts. -/
inductive Kind
  /-- `static_cast` -/
  | static
  /-- `const_cast` -/
  | const
  /-- `reinterpret_cast` -/
  | reinterpret
  /-- `dynamic_cast` -/
  | dynamic
  /-- `return {};` -/
  | zero
  deriving DecidableEq

/-- One cast. -/
structure Step where
  kind : Kind
  source : Typ
  target : Typ

/-- What the compiler makes of a call: a `static_assert` fails, the instantiation does not end within the depth given, or a list
of casts. -/
inductive Plan
  | rejected
  | tooDeep
  | casts (steps : List Step)

/-- A cast followed by more. -/
def Plan.after (s : Step) : Plan → Plan
  | .casts l => .casts (s :: l)
  | p => p

/-- A cast at the end. -/
def Plan.andThen (s : Step) : Plan → Plan
  | .casts l => .casts (l ++ [s])
  | p => p

/-- `intptr_t` or `uintptr_t`: lines 105, 130. -/
def intptr (signed : Bool) : IntTy := ⟨signed, false, true, false⟩

/-- `inherits_from<Child, Parent>`: `meta.h` 1374-1378. -/
def inheritsFrom (H : Hierarchy) : Ty → Ty → Bool
  | .cls d, .cls b => H.inherits d b && d != b
  | _, _ => false

/-- `std::is_function_v`. -/
def isFunction : Ty → Bool
  | .func _ _ => true
  | _ => false

/-- `std::is_pointer_v`. -/
def isPointer : Ty → Bool
  | .ptr _ _ => true
  | _ => false

/-- `std::is_polymorphic_v`. -/
def isPolymorphic (H : Hierarchy) : Ty → Bool
  | .cls b => H.polymorphic b
  | _ => false

/-- pointer → integral: lines 98-116. -/
def toInt (src : Typ) (t : IntTy) : Plan :=
  if t.isEnum = true ∨ t.wide = true then
    .casts [⟨.reinterpret, src, .int (intptr t.signed)⟩, ⟨.static, .int (intptr t.signed), .int t⟩]
  else .casts [⟨.reinterpret, src, .int t⟩]

/-- `pointer_cast<To>(from)`: lines 51-270; the first argument bounds the depth of the recursion. -/
def plan (H : Hierarchy) : ℕ → Typ → Typ → Plan
  | 0, _, _ => .tooDeep
  | fuel + 1, src, dst =>
    match src, dst with
    -- lines 57-60: the target is a pointer or an integer
    | _, .null => .rejected
    -- lines 82-87
    | .null, dst => .casts [⟨.zero, .null, dst⟩]
    -- lines 55-56
    | .int _, .int _ => .rejected
    | .pointer c1 t1, .int t => toInt (.pointer c1 t1) t
    -- integral → pointer: lines 118-135
    | .int t, .pointer c2 t2 =>
      if t.isEnum = true then
        (plan H fuel (.int { t with isEnum := false }) (.pointer c2 t2)).after
          ⟨.static, .int t, .int { t with isEnum := false }⟩
      else if t.isIntptr = true then .casts [⟨.reinterpret, .int t, .pointer c2 t2⟩]
      else .casts [⟨.static, .int t, .int (intptr t.signed)⟩, ⟨.reinterpret, .int (intptr t.signed), .pointer c2 t2⟩]
    | .pointer c1 t1, .pointer c2 t2 =>
      -- lines 78-80
      if c1 = c2 ∧ t1 = t2 then .casts []
      -- different qualifiers: lines 144-161
      else if t1 = t2 then
        if c1 ≠ CV.none then
          .casts [⟨.const, .pointer c1 t1, .pointer CV.none t1⟩, ⟨.static, .pointer CV.none t1, .pointer c2 t2⟩]
        else .casts [⟨.static, .pointer c1 t1, .pointer c2 t2⟩]
      -- functions: lines 163-199
      else if isFunction t1 = true ∨ isFunction t2 = true then
        match t1, t2 with
        | .func s n, .func s' _ =>
          if s ≠ s' then .rejected
          else if n = false then .casts [⟨.reinterpret, .pointer c1 t1, .pointer c2 t2⟩]
          else .casts [⟨.static, .pointer c1 t1, .pointer c2 t2⟩]
        | .func _ _, t2 =>
          if t2 ≠ .void then .rejected
          else .casts [⟨.reinterpret, .pointer c1 t1, .pointer CV.none .void⟩, ⟨.static, .pointer CV.none .void, .pointer c2 t2⟩]
        | t1, t2 =>
          if t1 ≠ .void then .rejected
          else (plan H fuel (.pointer c1 t1) (.pointer CV.none .void)).andThen
            ⟨.reinterpret, .pointer CV.none .void, .pointer c2 t2⟩
      -- void, derived to base: lines 201-207
      else if t1 = .void ∨ t2 = .void ∨ inheritsFrom H t1 t2 = true then
        (plan H fuel (.pointer c1 t2) (.pointer c2 t2)).after ⟨.static, .pointer c1 t1, .pointer c1 t2⟩
      -- base to derived: lines 240-247
      else if inheritsFrom H t2 t1 = true then
        if isPolymorphic H t1 = true then
          (plan H fuel (.pointer c1 t2) (.pointer c2 t2)).after ⟨.dynamic, .pointer c1 t1, .pointer c1 t2⟩
        else (plan H fuel (.pointer c1 t2) (.pointer c2 t2)).after ⟨.static, .pointer c1 t1, .pointer c1 t2⟩
      -- pointers to pointers: lines 249-260
      else if isPointer t1 = true then
        (plan H fuel (.pointer c1 .void) (.pointer c2 t2)).after ⟨.static, .pointer c1 t1, .pointer c1 .void⟩
      else if isPointer t2 = true then
        (plan H fuel (.pointer c1 t1) (.pointer c2 .void)).andThen ⟨.static, .pointer c2 .void, .pointer c2 t2⟩
      -- unrelated types: lines 262-268
      else (plan H fuel (.pointer c1 t2) (.pointer c2 t2)).after ⟨.reinterpret, .pointer c1 t1, .pointer c1 t2⟩

/-- `pointer_cast`; compilers allow a recursion of 900 instantiations and more. -/
def pointerCast (H : Hierarchy) (src dst : Typ) : Plan := plan H 4 src dst

/-- Whether C++ allows the cast ([expr.static.cast], [expr.const.cast], [expr.reinterpret.cast], [expr.dynamic.cast]), between
the types that occur here.  Conversions between functions and `void` are conditionally supported; assumed as the
documentation does ("where supported"). -/
def legal (H : Hierarchy) (s : Step) : Prop :=
  match s.kind, s.source, s.target with
  | .zero, .null, .pointer _ _ => True
  | .zero, .null, .int _ => True
  -- to the same type with more qualifiers, to void, from void, to a base or a derived class; never dropping qualifiers;
  -- a noexcept function to one that is not
  | .static, .pointer c1 t1, .pointer c2 t2 =>
    c1.le c2 ∧ (t1 = t2 ∨ (t2 = .void ∧ isFunction t1 = false) ∨ (t1 = .void ∧ isFunction t2 = false) ∨
      inheritsFrom H t1 t2 = true ∨ inheritsFrom H t2 t1 = true ∨
      ∃ n, t1 = .func n true ∧ t2 = .func n false)
  | .static, .int _, .int _ => True
  -- only qualifiers change
  | .const, .pointer _ t1, .pointer _ t2 => t1 = t2 ∧ isFunction t1 = false
  -- never dropping qualifiers
  | .reinterpret, .pointer c1 _, .pointer c2 _ => c1.le c2
  -- an integer large enough; not an enumeration; of exactly the size of a pointer where muu asserts it (line 113)
  | .reinterpret, .pointer _ _, .int t => t.isEnum = false ∧ t.wide = false
  | .reinterpret, .int _, .pointer _ _ => True
  -- from a polymorphic base, never dropping qualifiers
  | .dynamic, .pointer c1 t1, .pointer c2 t2 => c1.le c2 ∧ isPolymorphic H t1 = true ∧ inheritsFrom H t2 t1 = true
  | _, _, _ => False

/-- The integer reduced to the type: conversions of integers are modulo a power of two. -/
def wrapInt (t : IntTy) (z : ℤ) : ℤ :=
  let n : ℤ := 2 ^ (if t.wide then 128 else 64)
  if t.signed then (z + n / 2) % n - n / 2 else z % n

/-- The effect of a cast on a value.  Adjusting the address of a null pointer gives a null pointer. -/
def step (H : Hierarchy) (s : Step) (v : Value) : Value :=
  match s.target, v with
  | .pointer _ t2, .addr a =>
    match s.source with
    | .pointer _ t1 =>
      match s.kind, t1, t2 with
      | .dynamic, .cls b, .cls d => .addr ((H.object d b a).getD 0)
      | .static, .cls x, .cls y =>
        if a = 0 then .addr 0
        else if H.inherits x y = true ∧ x ≠ y then .addr (a + H.offset x y)
        else if H.inherits y x = true ∧ y ≠ x then .addr (a - H.offset y x)
        else .addr a
      | _, _, _ => .addr a
    | _ => .addr 0
  | .pointer _ _, .num z => .addr (BitVec.ofInt 64 z)
  | .int t, .addr a => if s.kind = .zero then .num 0 else .num (wrapInt t a.toNat)
  | .int t, .num z => .num (wrapInt t z)
  | .null, v => v

/-- The effect of a list of casts. -/
def run (H : Hierarchy) (steps : List Step) (v : Value) : Value := steps.foldl (fun v s => step H s v) v

/-- The value of `pointer_cast<dst>(v)`, if it compiles. -/
def result (H : Hierarchy) (src dst : Typ) (v : Value) : Option Value :=
  match pointerCast H src dst with
  | .casts l => some (run H l v)
  | _ => none

end Verif.Model.PointerCast
