/-!
# Model of `muu::utf8_decoder` (include/muu/utf8_decoder.h)

`uint_least32_t` is taken to be exactly 32 bits wide (it is on every platform muu supports).
-/
namespace Verif.Model

/-- include/muu/utf8_decoder.h:23-39 `state_table`, literally (256 byte classes, 108 transitions). -/
def stateTable : List Nat := [
  0, 0, 0, 0, 0, 0, 0, 0, 0, 0, 0, 0, 0, 0, 0, 0,
  0, 0, 0, 0, 0, 0, 0, 0, 0, 0, 0, 0, 0, 0, 0, 0,
  0, 0, 0, 0, 0, 0, 0, 0, 0, 0, 0, 0, 0, 0, 0, 0,
  0, 0, 0, 0, 0, 0, 0, 0, 0, 0, 0, 0, 0, 0, 0, 0,
  0, 0, 0, 0, 0, 0, 0, 0, 0, 0, 0, 0, 0, 0, 0, 0,
  0, 0, 0, 0, 0, 0, 0, 0, 0, 0, 0, 0, 0, 0, 0, 0,
  0, 0, 0, 0, 0, 0, 0, 0, 0, 0, 0, 0, 0, 0, 0, 0,
  0, 0, 0, 0, 0, 0, 0, 0, 0, 0, 0, 0, 0, 0, 0, 0,
  1, 1, 1, 1, 1, 1, 1, 1, 1, 1, 1, 1, 1, 1, 1, 1,
  9, 9, 9, 9, 9, 9, 9, 9, 9, 9, 9, 9, 9, 9, 9, 9,
  7, 7, 7, 7, 7, 7, 7, 7, 7, 7, 7, 7, 7, 7, 7, 7,
  7, 7, 7, 7, 7, 7, 7, 7, 7, 7, 7, 7, 7, 7, 7, 7,
  8, 8, 2, 2, 2, 2, 2, 2, 2, 2, 2, 2, 2, 2, 2, 2,
  2, 2, 2, 2, 2, 2, 2, 2, 2, 2, 2, 2, 2, 2, 2, 2,
  10, 3, 3, 3, 3, 3, 3, 3, 3, 3, 3, 3, 3, 4, 3, 3,
  11, 6, 6, 6, 5, 8, 8, 8, 8, 8, 8, 8, 8, 8, 8, 8,
  0, 12, 24, 36, 60, 96, 84, 12, 12, 12, 48, 72, 12, 12, 12, 12,
  12, 12, 12, 12, 12, 12, 12, 12, 12, 0, 12, 12, 12, 12, 12, 0,
  12, 0, 12, 12, 12, 24, 12, 12, 12, 12, 12, 24, 12, 24, 12, 12,
  12, 12, 12, 12, 12, 12, 12, 24, 12, 12, 12, 12, 12, 24, 12, 12,
  12, 12, 12, 12, 12, 24, 12, 12, 12, 12, 12, 12, 12, 12, 12, 36,
  12, 36, 12, 12, 12, 36, 12, 12, 12, 12, 12, 36, 12, 36, 12, 12,
  12, 36, 12, 12, 12, 12, 12, 12, 12, 12, 12, 12
]

/-- include/muu/utf8_decoder.h:22,40 the data members `state` and `codepoint`, zero-initialised. -/
structure Utf8Decoder where
  state : Nat := 0
  codepoint : BitVec 32 := 0
deriving DecidableEq, Repr

namespace Utf8Decoder

/-- include/muu/utf8_decoder.h:44-48 `error` -/
def error (d : Utf8Decoder) : Bool := d.state == 12
/-- include/muu/utf8_decoder.h:51-55 `clear_error` (its assertion is compiled out in release builds) -/
def clearError (d : Utf8Decoder) : Utf8Decoder := { d with state := 0 }
/-- include/muu/utf8_decoder.h:58-62 `has_value` -/
def hasValue (d : Utf8Decoder) : Bool := d.state == 0
/-- include/muu/utf8_decoder.h:65-69 `value` -/
def value (d : Utf8Decoder) : BitVec 32 := d.codepoint
/-- include/muu/utf8_decoder.h:72-76 `needs_more_input` -/
def needsMoreInput (d : Utf8Decoder) : Bool := d.state > 0 && d.state != 12

/-- include/muu/utf8_decoder.h:79-90 `operator()(uint8_t)`. The table lookups are bounds-checked: an
out-of-bounds read would yield the impossible state 1000 (shown unreachable in Proofs/Utf8). The
`char`/`char8_t` overloads (92-107) convert to `uint8_t` first, which is the identity on the bits. -/
def feed (d : Utf8Decoder) (cu : BitVec 8) : Utf8Decoder :=
  let type := stateTable.getD cu.toNat 1000
  { codepoint :=
      if d.hasValue then ((255#32) >>> type) &&& cu.zeroExtend 32
      else (cu.zeroExtend 32 &&& 63#32) ||| (d.codepoint <<< 6)
    state := stateTable.getD (d.state + 256 + type) 1000 }

/-- Feeding code units one after the other. -/
def feedAll (d : Utf8Decoder) (cus : List (BitVec 8)) : Utf8Decoder := cus.foldl feed d

end Utf8Decoder
end Verif.Model
