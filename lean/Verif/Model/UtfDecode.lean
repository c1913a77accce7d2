import Verif.Spec.Unicode
import Verif.Model.Utf8Decoder
import Verif.Model.Utf16Decoder

/-!
# Model of `muu::utf_decode` (include/muu/utf_decode.h)

A little-endian platform is modelled (`build::is_big_endian` false). The callback is an arbitrary function
of everything it has been called with so far (so a stateful callback is covered); it answers `true` to go
on. A callback with a `void` result is the constant `true` (lines 98-107). An out-of-bounds read of the
string yields the distinct outcome `none`.
-/
namespace Verif.Model
open Verif.Spec

/-- The operations of `utf8_decoder` / `utf16_decoder` the traversal uses (utf_decode.h:23-25 selects one). -/
structure DecoderOps (δ υ : Type) where
  init : δ
  feed : δ → υ → δ
  error : δ → Bool
  clearError : δ → δ
  hasValue : δ → Bool
  value : δ → BitVec 32

def utf8Ops : DecoderOps Utf8Decoder (BitVec 8) :=
  ⟨{}, Utf8Decoder.feed, Utf8Decoder.error, Utf8Decoder.clearError, Utf8Decoder.hasValue, Utf8Decoder.value⟩

def utf16Ops : DecoderOps Utf16Decoder (BitVec 16) :=
  ⟨{}, Utf16Decoder.feed, Utf16Decoder.error, Utf16Decoder.clearError, Utf16Decoder.hasValue, Utf16Decoder.value⟩

/-- A callback: all reports so far, including the current one, to "keep going". -/
abbrev Callback := List Report → Bool

/-- The reports made so far and the local variable `stop` (utf_decode.h:110). -/
structure Log where
  reports : List Report := []
  stop : Bool := false
deriving DecidableEq, Repr

/-- include/muu/utf_decode.h:84-108 `stop_after_invoking` -/
def Log.emit (cb : Callback) (l : Log) (r : Report) : Log :=
  { reports := l.reports ++ [r], stop := !cb (l.reports ++ [r]) }

section
variable {δ υ : Type} (ops : DecoderOps δ υ) (raw : υ → BitVec 32) (get : Nat → Option υ) (cb : Callback)

/-- include/muu/utf_decode.h:220-221 (and 146-147) `for (j...; j < je && !stop; j++)`, `n = je - j` -/
def emitRawFwd : (n j : Nat) → Log → Option Log
  | 0, _, l => some l
  | n + 1, j, l =>
    if l.stop then some l
    else (get j).bind fun u => emitRawFwd n (j + 1) (l.emit cb ⟨raw u, j, 1⟩)

/-- include/muu/utf_decode.h:197-199 (and 141-142) `for (i = cp_start + cu_count; i-- > cp_start && !stop;)`,
`n` is the number of units not yet visited -/
def emitRawRev (cpStart : Nat) : (n : Nat) → Log → Option Log
  | 0, l => some l
  | n + 1, l =>
    if l.stop then some l
    else (get (cpStart + n)).bind fun u => emitRawRev cpStart n (l.emit cb ⟨raw u, cpStart + n, 1⟩)

/-- include/muu/utf_decode.h:207-225 the forward loop; `n = e - i` -/
def fwdLoop : (n i : Nat) → (d : δ) → (cpStart cuCount : Nat) → Log → Option Log
  | 0, _, _, _, _, l => some l
  | n + 1, i, d, cpStart, cuCount, l =>
    if l.stop then some l
    else (get i).bind fun u =>
      let cuCount := cuCount + 1
      let d := ops.feed d u
      if ops.hasValue d then
        fwdLoop n (i + 1) d (i + 1) 0 (l.emit cb ⟨ops.value d, cpStart, cuCount⟩)
      else if ops.error d then
        (emitRawFwd raw get cb cuCount cpStart l).bind fun l =>
          fwdLoop n (i + 1) (ops.clearError d) (i + 1) 0 l
      else fwdLoop n (i + 1) d cpStart cuCount l

/-- include/muu/utf_decode.h:185-190 feed one group of units, stopping at an error -/
def feedGroup : (n i : Nat) → (d : δ) → Option δ
  | 0, _, d => some d
  | n + 1, i, d => (get i).bind fun u =>
    let d := ops.feed d u
    if ops.error d then some d else feedGroup n (i + 1) d

/-- include/muu/utf_decode.h:177-203 the reverse loop; `n = cp_start - data_start` before the decrement -/
def revLoop (boundary : υ → Bool) (maxCu dataStart : Nat) : (n : Nat) → (d : δ) → (cuCount : Nat) → Log → Option Log
  | 0, _, _, l => some l
  | n + 1, d, cuCount, l =>
    if l.stop then some l
    else
      let cpStart := dataStart + n
      let cuCount := cuCount + 1
      (get cpStart).bind fun u =>
        if cuCount == maxCu || boundary u then
          (feedGroup ops get cuCount cpStart d).bind fun d =>
            if ops.hasValue d then
              revLoop boundary maxCu dataStart n d 0 (l.emit cb ⟨ops.value d, cpStart, cuCount⟩)
            else if ops.error d then
              (emitRawRev raw get cb cpStart cuCount l).bind fun l =>
                revLoop boundary maxCu dataStart n (ops.clearError d) 0 l
            else revLoop boundary maxCu dataStart n d 0 l
        else revLoop boundary maxCu dataStart n d cuCount l
end

/-- include/muu/impl/unicode_unsigned_char.h:305-308 -/
def isBoundary8 (c : BitVec 8) : Bool := (c &&& 0xC0#8) != 0x80#8

/-- include/muu/impl/unicode_char16_t.h:1079-1082 -/
def isBoundary16 (c : BitVec 16) : Bool := c ≤ 0xDBFF#16 || c ≥ 0xE000#16

/-- include/muu/utf_decode.h:157 the three-byte `bit_pack` compared with 0x00EFBBBF -/
def hasBom8 (str : List (BitVec 8)) : Bool :=
  match str with
  | a :: b :: c :: _ =>
    ((a.zeroExtend 32 <<< 16) ||| ((b.zeroExtend 32 <<< 8) ||| c.zeroExtend 32)) == 0x00EFBBBF#32
  | _ => false

/-- include/muu/utf_decode.h:72-228 for one-byte code units. `raw` is the conversion of a code unit to
`char32_t`: sign-extending for a signed `char`, zero-extending for `char8_t` and an unsigned `char`. -/
def utfDecode8 (raw : BitVec 8 → BitVec 32) (str : List (BitVec 8)) (reverse : Bool) (cb : Callback) :
    Option (List Report) :=
  if str.isEmpty then some []
  else
    let dataStart := if hasBom8 str then 3 else 0
    let get := fun i => str[i]?
    (if reverse then revLoop utf8Ops raw get cb isBoundary8 4 dataStart (str.length - dataStart) utf8Ops.init 0 {}
     else fwdLoop utf8Ops raw get cb (str.length - dataStart) dataStart utf8Ops.init dataStart 0 {}).map Log.reports

/-- include/muu/impl/utf_decode.h:52-65 `utf_detect_platform_endian` (little-endian platform): the high byte is
zero more often than the low byte. The `int` counters are bounded by 16. -/
def detectPlatformEndian {w : Nat} (str : List (BitVec w)) : Bool :=
  let low := (str.filter fun c => c.extractLsb' 0 8 == 0#8).length
  let high := (str.filter fun c => c.extractLsb' (w - 8) 8 == 0#8).length
  high > low

/-- include/muu/byte_reverse.h:72-75 -/
def byteReverse16 (v : BitVec 16) : BitVec 16 :=
  (((v.zeroExtend 32) <<< 8) ||| ((v.zeroExtend 32) >>> 8)).setWidth 16

/-- include/muu/byte_reverse.h:76-82 -/
def byteReverse32 (v : BitVec 32) : BitVec 32 :=
  (v <<< 24) ||| ((v <<< 8) &&& 0x00FF0000#32) ||| ((v >>> 8) &&& 0x0000FF00#32) ||| (v >>> 24)

/-- include/muu/utf_decode.h:162-171 byte order decision for UTF-16: (data_start, requires_bswap) -/
def endian16 (str : List (BitVec 16)) : Nat × Bool :=
  match str with
  | [] => (0, false)
  | u :: _ =>
    if u == 0xFFFE#16 then (1, true)
    else if u == 0xFEFF#16 then (1, false)
    else (0, !detectPlatformEndian (str.take 16))

/-- include/muu/utf_decode.h:72-228 for two-byte code units -/
def utfDecode16 (str : List (BitVec 16)) (reverse : Bool) (cb : Callback) : Option (List Report) :=
  if str.isEmpty then some []
  else
    let (dataStart, bswap) := endian16 str
    let get := fun i => (str[i]?).map fun u => if bswap then byteReverse16 u else u
    (if reverse then revLoop utf16Ops (·.zeroExtend 32) get cb isBoundary16 2 dataStart (str.length - dataStart)
        utf16Ops.init 0 {}
     else fwdLoop utf16Ops (·.zeroExtend 32) get cb (str.length - dataStart) dataStart utf16Ops.init dataStart 0 {}).map
      Log.reports

/-- include/muu/utf_decode.h:129-137 byte order decision for UTF-32: (data_start, requires_bswap) -/
def endian32 (str : List (BitVec 32)) : Nat × Bool :=
  match str with
  | [] => (0, false)
  | u :: _ =>
    if u == 0xFFFE0000#32 then (1, true)
    else if u == 0x0000FEFF#32 then (1, false)
    else (0, !detectPlatformEndian (str.take 16))

/-- include/muu/utf_decode.h:126-149 for four-byte code units -/
def utfDecode32 (str : List (BitVec 32)) (reverse : Bool) (cb : Callback) : Option (List Report) :=
  if str.isEmpty then some []
  else
    let (dataStart, bswap) := endian32 str
    let get := fun i => (str[i]?).map fun u => if bswap then byteReverse32 u else u
    (if reverse then emitRawRev id get cb dataStart (str.length - dataStart) {}
     else emitRawFwd id get cb (str.length - dataStart) dataStart {}).map Log.reports

end Verif.Model
