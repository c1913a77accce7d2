import Verif.Model.Bits
import Verif.Model.Chars
import Verif.Model.UnicodeChar32
import Verif.Model.Hashing

/-!
# Model of `muu::uuid` (include/muu/uuid.h, src/uuid.cpp)

A little-endian platform with 128 bit integers, not Windows. The branches for platforms without `uint128_t` or constexpr
`bit_cast` are modelled as well, under names of their own.
-/
namespace Verif.Model
open Verif.Spec

/-- include/muu/uuid.h:27-45 `uuid_bytes`, the only data member of `uuid` (line 211) -/
abbrev Uuid := Vector (BitVec 8) 16

namespace Uuid
open CodePoint

/-- a `std::byte` argument of `bit_pack` -/
def byteArg (b : BitVec 8) : PackArg := ⟨8, b, false⟩

/-- include/muu/uuid.h:50-62 `uuid_slicer<2>::slice` -/
def slice2 (u : Uuid) (first : Nat) (h : first + 2 ≤ 16 := by decide) : BitVec 16 :=
  bitPack 16 false [byteArg u[first], byteArg u[first + 1]]

/-- include/muu/uuid.h:64-76 `uuid_slicer<4>::slice` -/
def slice4 (u : Uuid) (first : Nat) (h : first + 4 ≤ 16 := by decide) : BitVec 32 :=
  bitPack 32 false [byteArg u[first], byteArg u[first + 1], byteArg u[first + 2], byteArg u[first + 3]]

/-- include/muu/uuid.h:78-104 `uuid_slicer<8>::slice` -/
def slice8 (u : Uuid) (first : Nat) (h : first + 8 ≤ 16 := by decide) : BitVec 64 :=
  bitPack 64 false [byteArg u[first], byteArg u[first + 1], byteArg u[first + 2], byteArg u[first + 3],
    byteArg u[first + 4], byteArg u[first + 5], byteArg u[first + 6], byteArg u[first + 7]]

/-- include/muu/uuid.h:235-258 the constructor from six fields -/
def ofFields (timeLow : BitVec 32) (timeMid timeHighAndVersion : BitVec 16) (clockSeqHighAndReserved clockSeqLow : BitVec 8)
    (node : BitVec 64) : Uuid :=
  #v[byteSelectT (n := 4) 3 timeLow, byteSelectT (n := 4) 2 timeLow, byteSelectT (n := 4) 1 timeLow,
     byteSelectT (n := 4) 0 timeLow, byteSelectT (n := 2) 1 timeMid, byteSelectT (n := 2) 0 timeMid,
     byteSelectT (n := 2) 1 timeHighAndVersion, byteSelectT (n := 2) 0 timeHighAndVersion,
     clockSeqHighAndReserved, clockSeqLow,
     byteSelectT (n := 8) 5 node, byteSelectT (n := 8) 4 node, byteSelectT (n := 8) 3 node,
     byteSelectT (n := 8) 2 node, byteSelectT (n := 8) 1 node, byteSelectT (n := 8) 0 node]

/-- include/muu/uuid.h:268-290 the constructor from five fields -/
def ofFields5 (timeLow : BitVec 32) (timeMid timeHighAndVersion : BitVec 16) (clockSeq : BitVec 16) (node : BitVec 64) :
    Uuid :=
  #v[byteSelectT (n := 4) 3 timeLow, byteSelectT (n := 4) 2 timeLow, byteSelectT (n := 4) 1 timeLow,
     byteSelectT (n := 4) 0 timeLow, byteSelectT (n := 2) 1 timeMid, byteSelectT (n := 2) 0 timeMid,
     byteSelectT (n := 2) 1 timeHighAndVersion, byteSelectT (n := 2) 0 timeHighAndVersion,
     byteSelectT (n := 2) 1 clockSeq, byteSelectT (n := 2) 0 clockSeq,
     byteSelectT (n := 8) 5 node, byteSelectT (n := 8) 4 node, byteSelectT (n := 8) 3 node,
     byteSelectT (n := 8) 2 node, byteSelectT (n := 8) 1 node, byteSelectT (n := 8) 0 node]

/-- include/muu/uuid.h:293-296 `uuid(nullptr_t)` -/
def nil : Uuid := Vector.replicate 16 0

/-- `bit_cast` of a 128 bit integer to its 16 bytes in little-endian memory -/
def bytesOf128 (x : BitVec 128) : Uuid := Vector.ofFn fun i => (x >>> (8 * i.val)).setWidth 8

/-- `bit_cast` of 16 bytes to a 128 bit integer in little-endian memory -/
def load128 (u : Uuid) : BitVec 128 :=
  (List.range 16).foldl (fun acc i => acc ||| ((u.toList.getD i 0).setWidth 128 <<< (8 * i))) 0

/-- include/muu/uuid.h:305-308 the constructor from a 128 bit integer -/
def ofUint128 (x : BitVec 128) : Uuid := bytesOf128 (byteReverse128 x)

/-- include/muu/uuid.h:455-464 conversion to a 128 bit integer, with constexpr `bit_cast` -/
def toUint128 (u : Uuid) : BitVec 128 := byteReverse128 (load128 u)

/-- include/muu/uuid.h:465-484 conversion to a 128 bit integer, without it -/
def toUint128Packed (u : Uuid) : BitVec 128 :=
  bitPack 128 false [byteArg u[0], byteArg u[1], byteArg u[2], byteArg u[3], byteArg u[4], byteArg u[5], byteArg u[6],
    byteArg u[7], byteArg u[8], byteArg u[9], byteArg u[10], byteArg u[11], byteArg u[12], byteArg u[13],
    byteArg u[14], byteArg u[15]]

/-- include/muu/uuid.h:133-140 `uuid_variant` -/
inductive Variant | none | standard | reservedNcs | reservedMicrosoft | reservedFuture
deriving DecidableEq, Repr

/-- include/muu/uuid.h:147-156 `uuid_version`: the value of the enumerator; 15 is `unknown` -/
abbrev Version := Nat

/-- include/muu/uuid.h:370-391 `variant()` -/
def variantOf (b : BitVec 8) : Variant :=
  let v : BitVec 32 := ((b &&& 0b11100000#8) >>> 5).setWidth 32
  if v = 0 then .none
  else if v ≤ 0b011#32 then .reservedNcs
  else if v ||| 0b101#32 = 0b101#32 then .standard
  else if v = 0b110#32 then .reservedMicrosoft
  else .reservedFuture
def variant (u : Uuid) : Variant := variantOf u[8]

/-- include/muu/uuid.h:394-401 `version()` -/
def versionOf (b : BitVec 8) : Version :=
  let v : BitVec 32 := ((b &&& 0b11110000#8) >>> 4).setWidth 32
  if v > 5#32 then 15 else v.toNat
def version (u : Uuid) : Version := versionOf u[6]

/-- include/muu/uuid.h:404-409 -/
def timeLow (u : Uuid) : BitVec 32 := slice4 u 0
/-- include/muu/uuid.h:412-417 -/
def timeMid (u : Uuid) : BitVec 16 := slice2 u 4
/-- include/muu/uuid.h:420-425 -/
def timeHighAndVersion (u : Uuid) : BitVec 16 := slice2 u 6
/-- include/muu/uuid.h:428-432 -/
def clockSeqHighAndReserved (u : Uuid) : BitVec 8 := u[8]
/-- include/muu/uuid.h:435-439 -/
def clockSeqLow (u : Uuid) : BitVec 8 := u[9]
/-- include/muu/uuid.h:445-450 -/
def node (u : Uuid) : BitVec 64 := slice8 u 8 &&& 0x0000FFFFFFFFFFFF#64

/-- include/muu/uuid.h:507-521 `operator bool`: the `bit_cast` version -/
def toBool (u : Uuid) : Bool := load128 u != 0
/-- … and the loop over the bytes, lines 515-520 -/
def toBoolLoop (u : Uuid) : Bool := (List.range 16).any fun i => u.toList.getD i 0 != 0

/-- include/muu/uuid.h:524-545 `operator==`; `same` says whether both operands are the same object -/
def eq (same : Bool) (l r : Uuid) : Bool := if same then true else load128 l == load128 r
/-- … and the loop over the bytes, lines 538-543 -/
def eqLoop (same : Bool) (l r : Uuid) : Bool :=
  if same then true else (List.range 16).all fun i => l.toList.getD i 0 == r.toList.getD i 0
/-- include/muu/uuid.h:548-552 `operator!=` -/
def ne (same : Bool) (l r : Uuid) : Bool := !eq same l r

/-- include/muu/uuid.h:555-581 `compare` with 128 bit integers -/
def compare (same : Bool) (l r : Uuid) : Int :=
  if same then 0
  else if toUint128 l ≠ toUint128 r then (if toUint128 l < toUint128 r then -1 else 1)
  else 0

/-- the loop of lines 573-577, over the pairs of bytes still to be compared -/
def compareBytes : List (BitVec 8 × BitVec 8) → Int
  | [] => 0
  | (a, b) :: rest => if a ≠ b then (if a < b then -1 else 1) else compareBytes rest

/-- include/muu/uuid.h:555-581 `compare` without 128 bit integers -/
def compareLoop (same : Bool) (l r : Uuid) : Int :=
  if same then 0 else compareBytes (l.toList.zip r.toList)

/-- include/muu/uuid.h:584-609 the relational operators -/
def lt (same : Bool) (l r : Uuid) : Bool := compare same l r < 0
def le (same : Bool) (l r : Uuid) : Bool := compare same l r ≤ 0
def gt (same : Bool) (l r : Uuid) : Bool := compare same l r > 0
def ge (same : Bool) (l r : Uuid) : Bool := compare same l r ≥ 0

/-- src/uuid.cpp:24-65 `print`: the characters written to the stream. The two characters of a `hex_char_pair` are
written in the order high, low (its declaration order). -/
def print (u : Uuid) : List (BitVec 8) :=
  let w := fun b : BitVec 8 => [(byteToHex b 0x41#8).1, (byteToHex b 0x41#8).2]
  w u[0] ++ w u[1] ++ w u[2] ++ w u[3] ++ [0x2D#8] ++
  w u[4] ++ w u[5] ++ [0x2D#8] ++
  w u[6] ++ w u[7] ++ [0x2D#8] ++
  w u[8] ++ w u[9] ++ [0x2D#8] ++
  w u[10] ++ w u[11] ++ w u[12] ++ w u[13] ++ w u[14] ++ w u[15]

/-- include/muu/uuid.h:698-704 `uuid_parser::states` -/
inductive PState | initial | parsing | finished | error
deriving DecidableEq, Repr

/-- include/muu/uuid.h:692-704 the data members of `uuid_parser`; `digits` never exceeds 32, so a natural number will do -/
structure Parser where
  value : Uuid := nil
  bracketed : Bool := false
  digits : Nat := 0
  rsh : Nat := 4
  state : PState := .initial
deriving DecidableEq

/-- include/muu/uuid.h:745-761 `case s_parsing`. Undefined behaviour of a predicate or a write behind the end of the
array is `none`. -/
def Parser.parsing (p : Parser) (c : BitVec 32) : Option Parser :=
  (Char32.isHexadecimalDigit.eval c.toNat).bind fun hex =>
    if hex then
      if h : p.digits / 2 < 16 then
        some { p with
          value := p.value.set (p.digits / 2) (p.value[p.digits / 2] ||| (hexToDec c <<< p.rsh).setWidth 8)
          digits := p.digits + 1
          state := if p.digits + 1 = 32 then .finished else p.state
          rsh := ((p.digits + 1 + 1) % 2) * 4 }
      else none
    else
      (Char32.isAsciiHyphen.eval c.toNat).bind fun hyphen =>
      (if hyphen then some true else Char32.isAsciiWhitespace.eval c.toNat).bind fun sep =>
        if sep then (if p.digits % 2 = 1 then some { p with state := .error } else some p)
        else some { p with state := .error }

/-- include/muu/uuid.h:714-780 `operator()(char32_t)`; the function's result is `state != s_error`, except that the early
return of lines 716-720 also sets the error state -/
def Parser.step (p : Parser) (c : BitVec 32) : Option Parser :=
  (Char32.isAsciiCodePoint.eval c.toNat).bind fun ascii =>
    if !ascii then some { p with state := .error }
    else
      match p.state with
      | .initial =>
        if c = 0x7B#32 then
          some (if p.bracketed then { p with state := .error, bracketed := true } else { p with bracketed := true })
        else
          (Char32.isAsciiWhitespace.eval c.toNat).bind fun ws =>
            if ws then some p
            else
              (Char32.isHexadecimalDigit.eval c.toNat).bind fun hex =>
                if hex then Parser.parsing { p with state := .parsing } c
                else some { p with state := .error }
      | .parsing => p.parsing c
      | .finished =>
        if c = 0x7D#32 then
          (if p.bracketed then some { p with bracketed := false } else some { p with state := .error })
        else
          (Char32.isAsciiWhitespace.eval c.toNat).bind fun ws =>
            if ws then some p else some { p with state := .error }
      | .error => some p

/-- the parser after a sequence of code points -/
def Parser.run (p : Parser) (cs : List (BitVec 32)) : Option Parser := cs.foldlM Parser.step p

/-- what the parser answers to `utf_decode` when it has been given the code points of `seen` -/
def Parser.keepGoing (seen : List Report) : Bool :=
  match Parser.run {} (seen.map Report.cp) with
  | some p => p.state != .error
  | none => false

/-- include/muu/uuid.h:785-797 `parse_impl`; `decode` is `utf_decode` for the string's encoding. `none` is undefined
behaviour, `some none` an empty optional. -/
def parse {υ : Type} (decode : List υ → Bool → Callback → Option (List Report)) (str : List υ) :
    Option (Option Uuid) :=
  if str.length < 32 then some none
  else
    (decode str false Parser.keepGoing).bind fun rs =>
    (Parser.run {} (rs.map Report.cp)).bind fun p =>
      if !p.bracketed && p.state == .finished then some (some p.value) else some none

def parse8 (raw : BitVec 8 → BitVec 32) := parse (utfDecode8 raw)
def parse16 := parse utfDecode16
def parse32 := parse utfDecode32

/-- src/uuid.cpp:136-143 and 167-172: the version and variant bits -/
def stamp (ver : BitVec 8) (u : Uuid) : Uuid :=
  let u := u.set 6 ((u[6] &&& 0b00001111#8) ||| ver)
  u.set 8 ((u[8] &&& 0b00111111#8) ||| 0b10000000#8)

/-- src/uuid.cpp:108-145 `muu_impl_uuid_generate`; `random` are the 16 values drawn -/
def generate (random : Uuid) : Uuid := stamp 0b01000000#8 random

/-- src/uuid.cpp:147-173 `muu_impl_uuid_generate_named`. A null `name_data` is an empty list. `garbage` is the
uninitialised block of the hasher. -/
def generateNamed (garbage : Sha1.ByteBlock) (nameSpace : Uuid) (name : List (BitVec 8)) : Option Uuid :=
  (Sha1.feed (Sha1.init garbage) nameSpace.toList).bind fun s =>
  (if name.isEmpty then some s else Sha1.feed s name).bind fun s =>
  (Sha1.finish s).map fun s =>
    stamp 0b01010000#8 (Vector.ofFn fun i => (Sha1.value s).getD i.val 0)

/-- include/muu/uuid.h:671-685 the name space constants -/
def namespaceDns : Uuid := ofFields5 0x6BA7B810#32 0x9DAD#16 0x11D1#16 0x80B4#16 0x00C04FD430C8#64
def namespaceUrl : Uuid := ofFields5 0x6BA7B811#32 0x9DAD#16 0x11D1#16 0x80B4#16 0x00C04FD430C8#64
def namespaceOid : Uuid := ofFields5 0x6BA7B812#32 0x9DAD#16 0x11D1#16 0x80B4#16 0x00C04FD430C8#64
def namespaceX500 : Uuid := ofFields5 0x6BA7B814#32 0x9DAD#16 0x11D1#16 0x80B4#16 0x00C04FD430C8#64

/-- include/muu/uuid.h:851-882 `std::hash<uuid>` with an 8 byte `size_t`; the constructor argument of the combiner is its
initial value -/
def hash (u : Uuid) : BitVec 64 := hashCombine hashCombiner64 (slice8 u 0) (slice8 u 8)

end Uuid
end Verif.Model
