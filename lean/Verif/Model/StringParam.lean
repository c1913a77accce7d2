import Verif.Model.Strings
import Verif.Spec.StringParam
/-!
# Model of `src/string_param.cpp`

`none` as an outcome is undefined behaviour: a false `MUU_ASSUME`, a null dereference, or undefined behaviour in the decoder
or in `is_not_whitespace`. Storage lifetimes are not modelled here (see `Model/StringLifetime.lean`): an owned string and a view of one are both their code units,
and the units viewed are assumed not to change while the parameter lives.
-/
namespace Verif.Model.StringParam
open Verif.Spec Verif.Spec.StringParam

/-- src/string_param.cpp:14-30 `mode` other than `none`: the character type, whether it is `std::basic_string` or
`std::basic_string_view`, and the code units in the storage -/
structure Val where
  e : Enc
  owned : Bool
  units : List (BitVec e.bits)
deriving DecidableEq

/-- include/muu/string_param.h:56-84; `none` is `mode::none` -/
abbrev Param := Option Val

/-- src/string_param.cpp:154-211 the overloads of `initialize` (here `init`) on a parameter with `mode_ == none`: an empty (or null) string
leaves it so -/
def init (e : Enc) (owned : Bool) (units : List (BitVec e.bits)) : Param :=
  if units.isEmpty then none else some ⟨e, owned, units⟩

/-- src/string_param.cpp:220-245 `visit`: `MUU_ASSUME(mode_ > 0)` -/
def visit {α : Type} (p : Param) (f : Val → Option α) : Option α :=
  match p with
  | none => none
  | some v => f v

/-- how a `char` (signed) and a `char8_t` become the code point of a unit that cannot be decoded
(include/muu/impl/unicode.h, see `utfDecode8`) -/
def rawNarrow (b : BitVec 8) : BitVec 32 := b.signExtend 32
def rawU8 (b : BitVec 8) : BitVec 32 := b.zeroExtend 32

/-- include/muu/strings.h:414-456 `transcode<To>(std::basic_string_view<From>)`: units of the same size are copied
(lines 422-430) -/
def transcode : (e e' : Enc) → List (BitVec e.bits) → Option (List (BitVec e'.bits))
  | .narrow, .narrow, s => some s
  | .narrow, .u8, s => some s
  | .narrow, .u16, s => transcode8to16 rawNarrow s
  | .narrow, .wide, s => transcode8to32 rawNarrow s
  | .narrow, .u32, s => transcode8to32 rawNarrow s
  | .u8, .narrow, s => some s
  | .u8, .u8, s => some s
  | .u8, .u16, s => transcode8to16 rawU8 s
  | .u8, .wide, s => transcode8to32 rawU8 s
  | .u8, .u32, s => transcode8to32 rawU8 s
  | .u16, .narrow, s => transcode16to8 s
  | .u16, .u8, s => transcode16to8 s
  | .u16, .u16, s => some s
  | .u16, .wide, s => transcode16to32 s
  | .u16, .u32, s => transcode16to32 s
  | .wide, .narrow, s => transcode32to8 s
  | .wide, .u8, s => transcode32to8 s
  | .wide, .u16, s => transcode32to16 s
  | .wide, .wide, s => some s
  | .wide, .u32, s => some s
  | .u32, .narrow, s => transcode32to8 s
  | .u32, .u8, s => transcode32to8 s
  | .u32, .u16, s => transcode32to16 s
  | .u32, .wide, s => some s
  | .u32, .u32, s => some s

/-- include/muu/strings.h:226-262 `muu::trim` -/
def trimUnits : (e : Enc) → List (BitVec e.bits) → Option (List (BitVec e.bits))
  | .narrow, s => trim8 rawNarrow s
  | .u8, s => trim8 rawU8 s
  | .u16, s => trim16 s
  | .wide, s => trim32 s
  | .u32, s => trim32 s

/-- src/string_param.cpp:471-479 `empty` -/
def empty (p : Param) : Option Bool :=
  match p with
  | none => some true
  | some _ => visit p fun v => some v.units.isEmpty

/-- src/string_param.cpp:493-517 `get_view`: the view's units, and the parameter afterwards. `*initialize(...)` dereferences
null when the new string is empty. -/
def getView (e : Enc) (p : Param) : Option (List Nat × Param) :=
  visit p fun v =>
    if v.e = e then some (v.units.map BitVec.toNat, p)
    else (transcode v.e e v.units).bind fun new =>
      match init e true new with
      | none => none
      | some n => some (n.units.map BitVec.toNat, some n)

/-- src/string_param.cpp:520-559 and include/muu/string_param.h:351-367 the conversions to views -/
def view (e : Enc) (p : Param) : Option (List Nat × Param) :=
  (empty p).bind fun b => if b then some ([], p) else getView e p

/-- src/string_param.cpp:563-591 `move_into_string` -/
def moveIntoString (e : Enc) (p : Param) : Option (List Nat × Param) :=
  visit p fun v =>
    if v.e = e then
      if v.owned then some (v.units.map BitVec.toNat, none) else some (v.units.map BitVec.toNat, p)
    else (transcode v.e e v.units).map fun new => (new.map BitVec.toNat, p)

/-- src/string_param.cpp:614-653 and include/muu/string_param.h:378-393 the conversions to strings -/
def toString (e : Enc) (p : Param) : Option (List Nat × Param) :=
  (empty p).bind fun b => if b then some ([], p) else moveIntoString e p

/-- src/string_param.cpp:655-691 `trim`. An owned string is erased and resized to the trimmed view, a view is replaced by it:
either way the trimmed units remain. -/
def trim (p : Param) : Option Param :=
  visit p fun v => (trimUnits v.e v.units).map fun t =>
    if t.isEmpty then none else some { v with units := t }

/-- the `mode_` of a parameter -/
def mode (p : Param) : Option (Enc × Bool) := p.map fun v => (v.e, v.owned)

/-- src/string_param.cpp:432-458 `operator=(string_param&&)` for distinct objects: the left side afterwards (the right side
becomes `mode::none`, line 456). Moving an owned string gives its units to the left side. -/
def moveAssign (lhs rhs : Param) : Option Param :=
  if mode lhs = mode rhs then visit rhs fun v => some (some v)
  else visit rhs fun v => some (init v.e v.owned v.units)

/-- one operation on a list of parameters; naming one that does not exist is undefined -/
def step (ps : List Param) : Op → Option (List Param × Obs)
  | .default => some (ps ++ [none], .nothing)
  | .construct e owned t => some (ps ++ [init e owned (encode e t)], .nothing)
  | .moveConstruct j =>
    -- src/string_param.cpp:460-463: `*this = MUU_MOVE(other)` on a fresh object
    ps[j]?.bind fun p => (moveAssign none p).map fun q => (ps.set j none ++ [q], .nothing)
  | .moveAssign i j =>
    if i = j then if i < ps.length then some (ps, .nothing) else none
    else ps[i]?.bind fun l => ps[j]?.bind fun r => (moveAssign l r).map fun q => ((ps.set i q).set j none, .nothing)
  | .view i e => ps[i]?.bind fun p => (view e p).map fun (s, q) => (ps.set i q, .text s)
  | .toString i e => ps[i]?.bind fun p => (toString e p).map fun (s, q) => (ps.set i q, .text s)
  | .trim i => ps[i]?.bind fun p => (trim p).map fun q => (ps.set i q, .nothing)
  | .isEmpty i => ps[i]?.bind fun p => (empty p).map fun b => (ps, .bool b)

/-- a history of operations -/
def run (ps : List Param) : List Op → Option (List Param × List Obs)
  | [] => some (ps, [])
  | op :: ops => (step ps op).bind fun (ps', o) => (run ps' ops).map fun (ps'', os) => (ps'', o :: os)

end Verif.Model.StringParam
