/-!
# Unicode encoding forms, from the Unicode Standard (chapter 3.9), independent of the code

Code points are natural numbers, code units are `BitVec 8` / `BitVec 16`.
-/
namespace Verif.Spec

/-- D76: a Unicode scalar value is any code point except the surrogates. -/
def IsScalar (c : Nat) : Prop := c < 0xD800 ∨ (0xE000 ≤ c ∧ c ≤ 0x10FFFF)

instance (c : Nat) : Decidable (IsScalar c) := by unfold IsScalar; infer_instance

/-- A UTF-8 continuation byte carrying a six bit payload. -/
def cont (n : Nat) : BitVec 8 := BitVec.ofNat 8 (0x80 + n % 64)

/-- Table 3-6: the UTF-8 encoding form of a scalar value. -/
def utf8 (c : Nat) : List (BitVec 8) :=
  if c < 0x80 then [BitVec.ofNat 8 c]
  else if c < 0x800 then [BitVec.ofNat 8 (0xC0 + c / 64), cont c]
  else if c < 0x10000 then [BitVec.ofNat 8 (0xE0 + c / 4096), cont (c / 64), cont c]
  else [BitVec.ofNat 8 (0xF0 + c / 262144), cont (c / 4096), cont (c / 64), cont c]

/-- The UTF-8 encoding of a list of scalar values. -/
def utf8s (cs : List Nat) : List (BitVec 8) := (cs.map utf8).flatten

/-- A byte string is well-formed UTF-8 when it is the encoding of some scalar values. -/
def WellFormed8 (bs : List (BitVec 8)) : Prop := ∃ cs : List Nat, (∀ c ∈ cs, IsScalar c) ∧ bs = utf8s cs

/-- Table 3-5: the UTF-16 encoding form of a scalar value. -/
def utf16 (c : Nat) : List (BitVec 16) :=
  if c < 0x10000 then [BitVec.ofNat 16 c]
  else [BitVec.ofNat 16 (0xD800 + (c - 0x10000) / 1024), BitVec.ofNat 16 (0xDC00 + (c - 0x10000) % 1024)]

def utf16s (cs : List Nat) : List (BitVec 16) := (cs.map utf16).flatten

/-- What a decoding pass over a string reports: the code point, the index of its first code unit and
the number of code units. -/
structure Report where
  cp : BitVec 32
  start : Nat
  count : Nat
deriving DecidableEq, Repr

/-- The reports expected for a well-formed UTF-8 string whose first code unit has index `start`. -/
def reports8 (start : Nat) : List Nat → List Report
  | [] => []
  | c :: cs => ⟨BitVec.ofNat 32 c, start, (utf8 c).length⟩ :: reports8 (start + (utf8 c).length) cs

/-- A callback that never stops the traversal. -/
def always : List Report → Bool := fun _ => true

/-- What a callback answering `cb` (given everything it was called with so far) gets to see of `rs` when the
traversal stops after the first `false`. -/
def cut (cb : List Report → Bool) (seen : List Report) : List Report → List Report
  | [] => []
  | r :: rs => r :: (if cb (seen ++ [r]) then cut cb (seen ++ [r]) rs else [])

/-- The reports are adjacent, non-empty, in increasing order, and cover exactly the code units `[a, m)`. -/
def Tiles (a : Nat) : List Report → Nat → Prop
  | [], m => a = m
  | r :: rs, m => r.start = a ∧ 0 < r.count ∧ Tiles (a + r.count) rs m

/-- The reports are non-empty, in decreasing order, do not overlap and lie within the code units `[lo, hi)`. -/
def Descends (lo hi : Nat) : List Report → Prop
  | [] => lo ≤ hi
  | r :: rs => 0 < r.count ∧ r.start + r.count ≤ hi ∧ Descends lo r.start rs

/-- A report is truthful for `str`: either the reported units are exactly the UTF-8 encoding of the reported scalar
value, or it is a single code unit reported as it is (`raw` converts a code unit to `char32_t`). -/
def Truthful8 (raw : BitVec 8 → BitVec 32) (str : List (BitVec 8)) (r : Report) : Prop :=
  (IsScalar r.cp.toNat ∧ (str.drop r.start).take r.count = utf8 r.cp.toNat) ∨
  (r.count = 1 ∧ ∃ u, str[r.start]? = some u ∧ r.cp = raw u)

/-- A (possibly empty) proper prefix of the encoding of a scalar value. -/
def Truncated8 (t : List (BitVec 8)) : Prop := ∃ c, IsScalar c ∧ t <+: utf8 c ∧ t ≠ utf8 c

/-- One report per code unit, with the unit's own value. -/
def unitReports {w : Nat} (start : Nat) : List (BitVec w) → List Report
  | [] => []
  | u :: us => ⟨u.setWidth 32, start, 1⟩ :: unitReports (start + 1) us

/-- The most / least significant byte of a code unit is zero. -/
def highByteZero {w : Nat} (u : BitVec w) : Bool := u.toNat / 2 ^ (w - 8) == 0
def lowByteZero {w : Nat} (u : BitVec w) : Bool := u.toNat % 256 == 0

/-- The UTF-8 byte order mark. -/
def bom8 : List (BitVec 8) := [0xEF#8, 0xBB#8, 0xBF#8]

end Verif.Spec
