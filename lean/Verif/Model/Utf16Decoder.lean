/-!
# Model of `muu::utf16_decoder` (include/muu/utf16_decoder.h)
-/
namespace Verif.Model

/-- include/muu/utf16_decoder.h:21-27 `decoder_state` -/
inductive Utf16State | initial | expectingLowSurrogate | hasCodepoint | error
deriving DecidableEq, Repr

/-- include/muu/utf16_decoder.h:28-29 data members -/
structure Utf16Decoder where
  state : Utf16State := .initial
  codepoint : BitVec 32 := 0
deriving DecidableEq, Repr

namespace Utf16Decoder

/-- include/muu/utf16_decoder.h:34-37 `error` -/
def error (d : Utf16Decoder) : Bool := d.state == .error
/-- include/muu/utf16_decoder.h:40-44 `clear_error` -/
def clearError (d : Utf16Decoder) : Utf16Decoder := { d with state := .initial }
/-- include/muu/utf16_decoder.h:48-51 `has_value` -/
def hasValue (d : Utf16Decoder) : Bool := d.state == .hasCodepoint
/-- include/muu/utf16_decoder.h:55-58 `value` -/
def value (d : Utf16Decoder) : BitVec 32 := d.codepoint
/-- include/muu/utf16_decoder.h:62-65 `needs_more_input` -/
def needsMoreInput (d : Utf16Decoder) : Bool := d.state == .expectingLowSurrogate

/-- include/muu/utf16_decoder.h:72-80 `code_unit_classes` and the class computation; the bit flags
0b00010000 / 0b00100000 never overlap the state numbers 0..3, so the `switch` on `class | state`
(82-103) is a match on the pair. -/
inductive UnitClass | basicMultilingual | lowSurrogate | highSurrogate
deriving DecidableEq, Repr

/-- include/muu/utf16_decoder.h:79-80 -/
def unitClass (cu : BitVec 16) : UnitClass :=
  if 0xDC00#16 ≤ cu ∧ cu ≤ 0xDFFF#16 then .lowSurrogate
  else if 0xD800#16 ≤ cu ∧ cu ≤ 0xDBFF#16 then .highSurrogate
  else .basicMultilingual

/-- include/muu/utf16_decoder.h:68-104 `operator()(uint16_t)`. Note line 93: a high surrogate moves the
decoder to `ds_has_codepoint`, not to `ds_expecting_low_surrogate`. -/
def feed (d : Utf16Decoder) (cu : BitVec 16) : Utf16Decoder :=
  match unitClass cu, d.state with
  | .basicMultilingual, .initial | .basicMultilingual, .hasCodepoint =>
    { codepoint := cu.zeroExtend 32, state := .hasCodepoint }
  | .highSurrogate, .initial | .highSurrogate, .hasCodepoint =>
    { codepoint := cu.zeroExtend 32, state := .hasCodepoint }
  | .lowSurrogate, .expectingLowSurrogate =>
    { codepoint := ((d.codepoint - 0xD800#32) <<< 10) + (cu.zeroExtend 32 - 0xDC00#32) + 0x10000#32,
      state := .hasCodepoint }
  | _, _ => { d with state := .error }

/-- Feeding code units one after the other. -/
def feedAll (d : Utf16Decoder) (cus : List (BitVec 16)) : Utf16Decoder := cus.foldl feed d

end Utf16Decoder
end Verif.Model
