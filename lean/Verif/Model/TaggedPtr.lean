import Verif.Model.Bits
import Verif.Model.CInt
import Verif.Spec.TaggedPtr
/-!
# Model of tagged_ptr

Models `/repo/include/muu/tagged_ptr.h` for 64-bit little endian targets. `none`: an assertion fails or the call does not
compile.
-/
namespace Verif.Model.TaggedPtr
open Verif.Spec.CInt Verif.Spec.TaggedPtr Verif.Model.CInt Verif.Model

/-- the template argument Align, tptr_free_bits (lines 51–52: 64 minus MUU_TAGGED_PTR_BITS, or 0) and MUU_ARCH_AMD64 -/
structure Cfg where
  align : Nat
  free : Nat
  amd64 : Bool

/-- tag_bits, line 129 -/
def Cfg.tagBits (c : Cfg) : Nat :=
  (max ((bitWidth countlZero (BitVec.ofNat 64 c.align)).getD 0).toNat 1 - 1) + c.free

/-- tag_mask, line 130 -/
def Cfg.tagMask (c : Cfg) : BitVec 64 := (bitFillRight 64 c.tagBits).getD 0

/-- ptr_mask, line 131 -/
def Cfg.ptrMask (c : Cfg) : BitVec 64 := ~~~c.tagMask

/-- pack_ptr_unchecked, lines 111–118 -/
def packPtrUnchecked (c : Cfg) (p : BitVec 64) : BitVec 64 := if c.free > 0 then p <<< c.free else p

/-- can_store_ptr, lines 141–152 -/
def canStorePtr (c : Cfg) (p : BitVec 64) : Bool :=
  if c.tagBits = 0 then true else (packPtrUnchecked c p &&& c.tagMask) == 0

/-- static_cast to uintptr_t -/
def toWord (v : Int) : BitVec 64 := BitVec.ofInt 64 v

/-- `static_cast<tptr_make_unsigned<Tag>>`, lines 86–99 -/
def asUnsigned (t : Ty) (v : Int) : Int := conv ⟨t.bits, false⟩ v

/-- can_store_tag, lines 154–176 -/
def canStoreTag (c : Cfg) (tag : Tag) : Bool :=
  if c.tagBits = 0 then false
  else if tag.bits ≤ c.tagBits then true
  else match tag with
    | .int t v | .enm t v => (toWord (asUnsigned t v) &&& c.ptrMask) == 0
    | .chr .. | .obj .. => false

/-- pack_ptr, lines 178–185 -/
def packPtr (c : Cfg) (p : BitVec 64) : Option (BitVec 64) :=
  if p = 0 ∨ ((bitFloor countlZero p).getD 0).toNat ≥ c.align then some (packPtrUnchecked c p) else none

/-- memcpy of the `n` bytes of the tag over the lowest bytes -/
def copyBytes (w : BitVec 64) {n : Nat} (b : BitVec (8 * n)) : BitVec 64 :=
  (w >>> (8 * n)) <<< (8 * n) ||| b.setWidth 64

/-- pack_both for integral types, lines 200–213 -/
def packBothInt (c : Cfg) (p : BitVec 64) (tag : Tag) (t : Ty) (v : Int) : Option (BitVec 64) :=
  if t.bits > c.tagBits then
    if canStoreTag c tag then (packPtr c p).map (· ||| (toWord v &&& c.tagMask)) else none
  else (packPtr c p).map (· ||| toWord v)

/-- pack_both, lines 187–229 -/
def packBoth (c : Cfg) (p : BitVec 64) : Tag → Option (BitVec 64)
  | .enm t v => packBothInt c p (.int ⟨t.bits, false⟩ (asUnsigned t v)) ⟨t.bits, false⟩ (asUnsigned t v)
  | .int t v => packBothInt c p (.int t v) t v
  | .chr t v => packBothInt c p (.chr t v) t v
  | .obj n b =>
    if 8 * n ≤ c.tagBits then
      (packPtr c p).map (fun w => copyBytes (if 8 * n < c.tagBits then w &&& c.ptrMask else w) b)
    else none

/-- set_ptr, lines 231–242 -/
def setPtr (c : Cfg) (w p : BitVec 64) : Option (BitVec 64) :=
  if c.tagBits ≠ 0 then (packPtr c p).map (· ||| (w &&& c.tagMask)) else packPtr c p

/-- set_tag of an integer, lines 254–263 -/
def setTagInt (c : Cfg) (w : BitVec 64) (t : Ty) (v : Int) : Option (BitVec 64) :=
  if t.bits > c.tagBits then
    if canStoreTag c (.int t v) then some ((w &&& c.ptrMask) ||| (toWord v &&& c.tagMask)) else none
  else some ((w &&& c.ptrMask) ||| toWord v)

/-- set_tag of an object, lines 266–278 -/
def setTagObj (c : Cfg) (w : BitVec 64) (n : Nat) (b : BitVec (8 * n)) : Option (BitVec 64) :=
  if 8 * n ≤ c.tagBits then some (copyBytes (if 8 * n < c.tagBits then w &&& c.ptrMask else w) b) else none

/-- set_tag, lines 244–278; bool and the character types are not tptr_is_enum_or_integer (lines 67–79), so they are
    treated as objects: their bytes are copied -/
def setTag (c : Cfg) (w : BitVec 64) : Tag → Option (BitVec 64)
  | .enm t v => setTagInt c w ⟨t.bits, false⟩ (asUnsigned t v)
  | .int t v => setTagInt c w t v
  | .chr t v => setTagObj c w (t.bits / 8) (BitVec.ofInt _ v)
  | .obj n b => setTagObj c w n b

/-- get_tag, lines 280–291 -/
def getTag (c : Cfg) (w : BitVec 64) : BitVec 64 := if c.tagBits ≠ 0 then w &&& c.tagMask else 0

/-- get_tag_bit, lines 293–299 -/
def getTagBit (c : Cfg) (w : BitVec 64) (i : Nat) : Option Bool :=
  if i < c.tagBits then some ((w &&& (1#64 <<< i)) != 0) else none

/-- set_tag_bit, lines 301–310 -/
def setTagBit (c : Cfg) (w : BitVec 64) (i : Nat) (b : Bool) : Option (BitVec 64) :=
  if i < c.tagBits then some (if b then w ||| (1#64 <<< i) else w &&& ~~~(1#64 <<< i)) else none

/-- get_ptr_impl, lines 330–351 -/
def getPtr (c : Cfg) (w : BitVec 64) : BitVec 64 :=
  let w := w &&& c.ptrMask
  if c.free > 0 then
    let w := w >>> c.free
    if c.amd64 ∧ (w &&& (1#64 <<< (64 - c.free - 1))) ≠ 0 then
      w ||| (((bitFillRight 64 c.free).getD 0) <<< (64 - c.free))
    else w
  else w

/-- operator bool, lines 803–808 -/
def isSet (c : Cfg) (w : BitVec 64) : Bool := (w &&& c.ptrMask) != 0

/-- `tag<Tag>()` for an integer or enum type, lines 724–737: the value -/
def tagAsInt (c : Cfg) (w : BitVec 64) (t : Ty) : Option Int :=
  if t.bits ≥ c.tagBits then some (conv t (getTag c w).toNat) else none

/-- `tag<Tag>()` for an object type, lines 738–741 with 312–321: its bytes -/
def tagAsObj (c : Cfg) (w : BitVec 64) (n : Nat) : Option (BitVec (8 * n)) :=
  if 8 * n ≤ c.tagBits then some (w.setWidth (8 * n)) else none

/-- the member functions: constructors and reset 559–636, ptr 698–702, clear_ptr 718–722, tag 763–769, tag_bit 783–792,
    clear_tag 797–801 -/
def step (c : Cfg) (w : BitVec 64) : Op → Option (BitVec 64)
  | .reset => some 0
  | .resetPtr p => packPtr c p
  | .resetBoth p t => packBoth c p t
  | .setPtr p => setPtr c w p
  | .clearPtr => some (w &&& c.tagMask)
  | .setTag t => setTag c w t
  | .setTagBit i b => setTagBit c w i b
  | .clearTag => some (w &&& c.ptrMask)

/-- a sequence of calls on a default constructed object -/
def run (c : Cfg) : BitVec 64 → List Op → Option (BitVec 64)
  | w, [] => some w
  | w, op :: l => (step c w op).bind (fun w => run c w l)

end Verif.Model.TaggedPtr
