import Verif.Model.UtfDecode
import Verif.Model.Unicode

/-!
# Model of `include/muu/strings.h`: encoders, transcoding and trimming
-/
namespace Verif.Model
open Verif.Spec

/-- include/muu/strings.h:85-109 `utf8_code_point(uint_least32_t)`: the array `code_units[4]` -/
def encode8 (cp : BitVec 32) : List (BitVec 8) :=
  if cp ≤ 0x7F#32 then [cp.setWidth 8, 0, 0, 0]
  else if cp ≤ 0x7FF#32 then [((cp >>> 6) ||| 0xC0#32).setWidth 8, ((cp &&& 0x3F#32) ||| 0x80#32).setWidth 8, 0, 0]
  else if cp ≤ 0xFFFF#32 then
    [((cp >>> 12) ||| 0xE0#32).setWidth 8, (((cp >>> 6) &&& 0x3F#32) ||| 0x80#32).setWidth 8,
     ((cp &&& 0x3F#32) ||| 0x80#32).setWidth 8, 0]
  else if cp ≤ 0x10FFFF#32 then
    [((cp >>> 18) ||| 0xF0#32).setWidth 8, (((cp >>> 12) &&& 0x3F#32) ||| 0x80#32).setWidth 8,
     (((cp >>> 6) &&& 0x3F#32) ||| 0x80#32).setWidth 8, ((cp &&& 0x3F#32) ||| 0x80#32).setWidth 8]
  else [0, 0, 0, 0]

/-- include/muu/strings.h:139-151 `utf16_code_point(uint_least32_t)`: the array `code_units[2]` -/
def encode16 (cp : BitVec 32) : List (BitVec 16) :=
  if cp < 0x10000#32 then [cp.setWidth 16, 0]
  else
    let cp := cp - 0x10000#32
    [(0xD800#32 ||| (cp >>> 10)).setWidth 16, (0xDC00#32 ||| (cp &&& 0x3FF#32)).setWidth 16]

/-- include/muu/strings.h:117-121 and 159-163 `view()`: the whole array if its last unit is not zero, otherwise a
zero-terminated string -/
def unitsView {w : Nat} (units : List (BitVec w)) : List (BitVec w) :=
  if units.getLast? ≠ some 0 then units else units.takeWhile (· != 0)

/-- include/muu/strings.h:414-456 `utf_transcode` between encodings of different unit size: `decode` is
`utf_decode` for the source encoding, `enc` appends one code point in the target encoding. (Between encodings of the
same unit size the units are copied, lines 422-430.) -/
def utfTranscode {υ τ : Type} (decode : List υ → Bool → Callback → Option (List Report)) (enc : BitVec 32 → List τ)
    (str : List υ) : Option (List τ) :=
  if str.isEmpty then some []
  else (decode str false always).map fun rs => rs.flatMap fun r => enc r.cp

/-- lines 446-450: `out += cp` / `out.append(enc.view())` -/
def enc32 (cp : BitVec 32) : List (BitVec 32) := [cp]
def enc8 (cp : BitVec 32) : List (BitVec 8) := unitsView (encode8 cp)
def enc16 (cp : BitVec 32) : List (BitVec 16) := unitsView (encode16 cp)

def transcode8to32 (raw : BitVec 8 → BitVec 32) := utfTranscode (utfDecode8 raw) enc32
def transcode8to16 (raw : BitVec 8 → BitVec 32) := utfTranscode (utfDecode8 raw) enc16
def transcode32to8 := utfTranscode utfDecode32 enc8
def transcode32to16 := utfTranscode utfDecode32 enc16
def transcode16to32 := utfTranscode utfDecode16 enc32
def transcode16to8 := utfTranscode utfDecode16 enc8

/-- include/muu/strings.h:55-74 `utf_find`: `none` is undefined behaviour (of the predicate or an out-of-bounds
read), `some none` is "not found", `some (some r)` the report the search stopped at. -/
def utfFind {υ : Type} (decode : List υ → Bool → Callback → Option (List Report)) (str : List υ) (reverse : Bool)
    (pred : BitVec 32 → Option Bool) : Option (Option Report) :=
  if str.isEmpty then some none
  else
    (decode str reverse fun seen => (seen.getLast?).all fun r => pred r.cp == some false).bind fun rs =>
      if rs.any (fun r => pred r.cp == none) then none
      else some ((rs.getLast?).filter fun r => pred r.cp == some true)

/-- `std::basic_string_view::substr`; throwing (in a `noexcept` function) is `none` -/
def substr {υ : Type} (str : List υ) (pos n : Nat) : Option (List υ) :=
  if pos ≤ str.length then some ((str.drop pos).take n) else none

/-- include/muu/strings.h:205-222 `predicated_trim`; the subtraction is in `size_t` -/
def predicatedTrim {υ : Type} (decode : List υ → Bool → Callback → Option (List Report))
    (pred : BitVec 32 → Option Bool) (str : List υ) : Option (List υ) :=
  if str.isEmpty then some []
  else
    (utfFind decode str false pred).bind fun
      | none => some []
      | some first => (utfFind decode str true pred).bind fun
        | none => substr str first.start ((2 ^ 64 - 1 + 0 + (2 ^ 64 - first.start)) % 2 ^ 64)
        | some last => substr str first.start ((last.start + last.count + (2 ^ 64 - first.start)) % 2 ^ 64)

/-- include/muu/strings.h:276-291 `predicated_trim_left` -/
def predicatedTrimLeft {υ : Type} (decode : List υ → Bool → Callback → Option (List Report))
    (pred : BitVec 32 → Option Bool) (str : List υ) : Option (List υ) :=
  if str.isEmpty then some []
  else
    (utfFind decode str false pred).bind fun
      | none => some []
      | some first => substr str first.start str.length

/-- include/muu/strings.h:345-360 `predicated_trim_right` -/
def predicatedTrimRight {υ : Type} (decode : List υ → Bool → Callback → Option (List Report))
    (pred : BitVec 32 → Option Bool) (str : List υ) : Option (List υ) :=
  if str.isEmpty then some []
  else
    (utfFind decode str true pred).bind fun
      | none => some []
      | some last => substr str 0 (last.start + last.count)

/-- include/muu/strings.h:226-231 (and the other overloads): `is_not_whitespace` of the `char32_t` code point -/
def trim8 (raw : BitVec 8 → BitVec 32) := predicatedTrim (utfDecode8 raw) isNotWhitespace32
def trimLeft8 (raw : BitVec 8 → BitVec 32) := predicatedTrimLeft (utfDecode8 raw) isNotWhitespace32
def trimRight8 (raw : BitVec 8 → BitVec 32) := predicatedTrimRight (utfDecode8 raw) isNotWhitespace32
def trim16 := predicatedTrim utfDecode16 isNotWhitespace32
def trimLeft16 := predicatedTrimLeft utfDecode16 isNotWhitespace32
def trimRight16 := predicatedTrimRight utfDecode16 isNotWhitespace32
def trim32 := predicatedTrim utfDecode32 isNotWhitespace32
def trimLeft32 := predicatedTrimLeft utfDecode32 isNotWhitespace32
def trimRight32 := predicatedTrimRight utfDecode32 isNotWhitespace32

end Verif.Model
