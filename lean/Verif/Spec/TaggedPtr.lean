import Verif.Spec.CInt
/-!
# A pointer and a tag, kept apart

What a tagged pointer is meant to be: two independent values.
-/
namespace Verif.Spec.TaggedPtr

/-- a value stored as the tag: of an integer type, of an enum with the given underlying type, of bool or a character
    type, or any other trivial object of `n` bytes (its bytes in memory, little endian) -/
inductive Tag where
  | int (t : CInt.Ty) (v : Int)
  | enm (t : CInt.Ty) (v : Int)
  | chr (t : CInt.Ty) (v : Int)
  | obj (n : Nat) (bytes : BitVec (8 * n))

/-- the bit pattern of the value in memory, as a number -/
def Tag.pattern : Tag → Nat
  | .int t v | .enm t v | .chr t v => (v % 2 ^ t.bits).toNat
  | .obj _ b => b.toNat

/-- size in bits -/
def Tag.bits : Tag → Nat
  | .int t _ | .enm t _ | .chr t _ => t.bits
  | .obj n _ => 8 * n

/-- an object of this type can have this value, which has at least one byte -/
def Tag.Valid : Tag → Prop
  | .int t v | .enm t v | .chr t v => t.Has v ∧ 0 < t.bits ∧ t.bits ≤ 64 ∧ t.bits % 8 = 0
  | .obj n _ => 0 < n

/-- the pointer and the tag -/
structure Pair where
  ptr : BitVec 64
  tag : Nat

/-- everything that can be done to it -/
inductive Op where
  | reset
  | resetPtr (p : BitVec 64)
  | resetBoth (p : BitVec 64) (t : Tag)
  | setPtr (p : BitVec 64)
  | clearPtr
  | setTag (t : Tag)
  | setTagBit (i : Nat) (b : Bool)
  | clearTag

/-- what it is meant to do -/
def Pair.step (s : Pair) : Op → Pair
  | .reset => ⟨0, 0⟩
  | .resetPtr p => ⟨p, 0⟩
  | .resetBoth p t => ⟨p, t.pattern⟩
  | .setPtr p => ⟨p, s.tag⟩
  | .clearPtr => ⟨0, s.tag⟩
  | .setTag t => ⟨s.ptr, t.pattern⟩
  | .setTagBit i b => ⟨s.ptr, if s.tag.testBit i = b then s.tag else s.tag ^^^ 2 ^ i⟩
  | .clearTag => ⟨s.ptr, 0⟩

/-- the addresses that pointers with the given alignment can have if only the lower `64 - free` bits of an address are
    used: the others are copies of the highest used bit (`copies`, AMD64) or zero -/
def Address (align free : Nat) (copies : Bool) (p : BitVec 64) : Prop :=
  p.toNat % align = 0 ∧
  ∀ i, 64 - free ≤ i → i < 64 → p.getLsbD i = (copies && p.getLsbD (63 - free))

end Verif.Spec.TaggedPtr
