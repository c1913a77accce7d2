import Verif.Spec.Unicode
import Verif.Spec.Trim
/-!
# What a `string_param` should do (C58)

A `string_param` is a text (a list of code points, possibly empty). Which encoding it was built from, whether it owns
its storage and which encodings it was asked for are of no concern to the caller.
-/
namespace Verif.Spec.StringParam
open Verif.Spec

/-- The character types: `char`, `wchar_t`, `char8_t`, `char16_t`, `char32_t`. -/
inductive Enc | narrow | wide | u8 | u16 | u32
deriving DecidableEq, Repr

/-- Bits in a code unit; `wchar_t` as on Linux. -/
@[reducible] def Enc.bits : Enc → Nat
  | .narrow => 8 | .wide => 32 | .u8 => 8 | .u16 => 16 | .u32 => 32

abbrev Text := List Nat

/-- The code units of a text in an encoding. -/
def encode : (e : Enc) → Text → List (BitVec e.bits)
  | .narrow, t => utf8s t
  | .wide, t => t.map (BitVec.ofNat 32)
  | .u8, t => utf8s t
  | .u16, t => utf16s t
  | .u32, t => t.map (BitVec.ofNat 32)

/-- Operations on a list of parameters (a new one is added at the end). -/
inductive Op
  | default
  /-- construction from (a view of, or by moving) a string in encoding `e` -/
  | construct (e : Enc) (owned : Bool) (t : Text)
  | moveConstruct (j : Nat)
  | moveAssign (i j : Nat)
  /-- `std::basic_string_view<Char>{ p }` -/
  | view (i : Nat) (e : Enc)
  /-- `std::basic_string<Char>{ std::move(p) }` -/
  | toString (i : Nat) (e : Enc)
  | trim (i : Nat)
  | isEmpty (i : Nat)

/-- What the caller sees: the values of the code units of a string, a truth value, or nothing. -/
inductive Obs
  | text (units : List Nat)
  | bool (b : Bool)
  | nothing
deriving DecidableEq, Repr

/-- The text as the caller should see it in encoding `e`. -/
def seen (e : Enc) (t : Text) : Obs := .text ((encode e t).map BitVec.toNat)

/-- One operation. Converting an rvalue to a string may or may not leave the text behind. -/
inductive Step : List Text → Op → Obs → List Text → Prop
  | default (ts) : Step ts .default .nothing (ts ++ [[]])
  | construct (ts e o t) : Step ts (.construct e o t) .nothing (ts ++ [t])
  | moveConstruct (ts j t) (h : ts[j]? = some t) : Step ts (.moveConstruct j) .nothing (ts.set j [] ++ [t])
  | moveSelf (ts i) : Step ts (.moveAssign i i) .nothing ts
  | moveAssign (ts i j t) (hi : i < ts.length) (hij : i ≠ j) (h : ts[j]? = some t) :
      Step ts (.moveAssign i j) .nothing ((ts.set i t).set j [])
  | view (ts i e t) (h : ts[i]? = some t) : Step ts (.view i e) (seen e t) ts
  | toStringKept (ts i e t) (h : ts[i]? = some t) : Step ts (.toString i e) (seen e t) ts
  | toStringGone (ts i e t) (h : ts[i]? = some t) : Step ts (.toString i e) (seen e t) (ts.set i [])
  | trim (ts i t) (h : ts[i]? = some t) : Step ts (.trim i) .nothing (ts.set i (trimmed t))
  | isEmpty (ts i t) (h : ts[i]? = some t) : Step ts (.isEmpty i) (.bool t.isEmpty) ts

/-- A history of operations with what is seen at each. -/
inductive Run : List Text → List Op → List Obs → List Text → Prop
  | nil (ts) : Run ts [] [] ts
  | cons {ts op o ts' ops os ts''} (h : Step ts op o ts') (t : Run ts' ops os ts'') : Run ts (op :: ops) (o :: os) ts''

/-- The caller names only existing parameters. -/
def Op.valid (n : Nat) : Op → Prop
  | .default | .construct .. => True
  | .moveConstruct j | .view j _ | .toString j _ | .trim j | .isEmpty j => j < n
  | .moveAssign i j => i < n ∧ j < n

end Verif.Spec.StringParam
