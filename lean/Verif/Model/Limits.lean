import Verif.Model.CInt
import Verif.Spec.FloatFormat
/-!
# Model of the limits, integers and characters of `constants` (`include/muu/impl/core_constants.h`, `include/muu/half.h`)

What comes straight from std::numeric_limits is not repeated.
-/
namespace Verif.Model.Limits
open Verif.Spec.CInt Verif.Model.CInt Verif.Spec.FloatFormat Verif.Spec.IeeeArith

/-- `constants<int128_t>::highest`, core_constants.h:68-69, for `bits` = __SIZEOF_INT128__ * CHAR_BIT; unsigned arithmetic is modulo `2^bits`. -/
def int128Highest (bits : ℕ) : ℤ :=
  let unsigned : Ty := ⟨bits, false⟩
  conv ⟨bits, true⟩ (conv unsigned (conv unsigned (1 * 2 ^ (bits - 1)) - 1))

/-- Signed arithmetic: `none` is an overflow, which is undefined. -/
def checked (bits : ℕ) (v : ℤ) : Option ℤ := if (⟨bits, true⟩ : Ty).Has v then some v else none

/-- `constants<int128_t>::lowest`, core_constants.h:70. -/
def int128Lowest (bits : ℕ) : Option ℤ := do
  let negative ← checked bits (-int128Highest bits)
  checked bits (negative - 1)

/-- `constants<uint128_t>::lowest`, core_constants.h:75. -/
def uint128Lowest : ℤ := 0

/-- `constants<uint128_t>::highest`, core_constants.h:76. -/
def uint128Highest (bits : ℕ) : ℤ :=
  let unsigned : Ty := ⟨bits, false⟩
  conv unsigned (conv unsigned (2 * conv unsigned (int128Highest bits)) + 1)

/-- `constants<float128_t>::highest`, core_constants.h:84; the literal is rounded to nearest in the format `f`. -/
def float128Highest (f : Format) : Number := f.round (.fin false (118973149535723176508575932662800702 / 10 ^ 35 * 10 ^ 4932))

/-- `constants<float128_t>::lowest`, core_constants.h:85. -/
def float128Lowest (f : Format) : Number := (float128Highest f).negate

/-- `constants<half>::lowest`, half.h:723. -/
def halfLowest : BitVec 16 := 0b1111101111111111

/-- `constants<half>::highest`, half.h:724. -/
def halfHighest : BitVec 16 := 0b0111101111111111

/-- The integers of `constants<half>`, half.h:735-746. -/
def halfIntegers : List (String × BitVec 16) := [
  ("zero", 0b0000000000000000),
  ("one", 0b0011110000000000),
  ("two", 0b0100000000000000),
  ("three", 0b0100001000000000),
  ("four", 0b0100010000000000),
  ("five", 0b0100010100000000),
  ("six", 0b0100011000000000),
  ("seven", 0b0100011100000000),
  ("eight", 0b0100100000000000),
  ("nine", 0b0100100010000000),
  ("ten", 0b0100100100000000),
  ("one_hundred", 0b0101011001000000)]

/-- `constants<half>::default_epsilon`, half.h:771. -/
def halfEpsilon : BitVec 16 := 0b0001010000011001

/-- `constants<half>::nan`, half.h:782. -/
def halfNan : BitVec 16 := 0b1111111000000001

/-- `constants<half>::signaling_nan`, half.h:783. -/
def halfSignalingNan : BitVec 16 := 0b1111110000000001

/-- `constants<half>::infinity`, half.h:784. -/
def halfInfinity : BitVec 16 := 0b0111110000000000

/-- `constants<half>::negative_infinity`, half.h:785. -/
def halfNegativeInfinity : BitVec 16 := 0b1111110000000000

/-- `constants<half>::negative_zero`, half.h:786. -/
def halfNegativeZero : BitVec 16 := 0b1000000000000000

/-- significand_digits and decimal_digits, core_constants.h:120-123, 136-137, 146-147, half.h:767-768; those of `float`, `double` and
(x87) `long double` are what std::numeric_limits says, those of `float128_t` are what GCC's macros say. -/
def digits : List (String × ℕ × ℕ) := [("half", 11, 3), ("_Float16", 11, 3), ("float", 24, 6), ("double", 53, 15), ("long double", 64, 18), ("float128_t", 113, 33)]

/-- `T{ n }`, which does not compile (`none`) if `T` does not have the value. -/
def braced (t : Ty) (n : ℤ) : Option ℤ := if t.Has n then some n else none

/-- integer_positive_constants, core_constants.h:97-108. -/
def integers : List (String × ℤ) := [("zero", 0), ("one", 1), ("two", 2), ("three", 3), ("four", 4), ("five", 5), ("six", 6),
  ("seven", 7), ("eight", 8), ("nine", 9), ("ten", 10), ("one_hundred", 100)]

/-- ascii_character_constants, core_constants.h:418-551. -/
def characters : List (String × ℤ) := [
  ("backspace", 8), ("escape", 27), ("del", 127), ("tab", 9), ("new_line", 10), ("vertical_tab", 11), ("form_feed", 12),
  ("carriage_return", 13), ("space", 32), ("exclamation_mark", 33), ("quote", 34), ("number_sign", 35), ("dollar_sign", 36),
  ("percent", 37), ("ampersand", 38), ("apostrophe", 39), ("left_parenthesis", 40), ("right_parenthesis", 41),
  ("asterisk", 42), ("plus", 43), ("comma", 44), ("hyphen", 45), ("period", 46), ("forward_slash", 47), ("colon", 58),
  ("semi_colon", 59), ("less_than", 60), ("equal", 61), ("greater_than", 62), ("question_mark", 63), ("at", 64),
  ("digit_0", 48), ("digit_1", 49), ("digit_2", 50), ("digit_3", 51), ("digit_4", 52), ("digit_5", 53), ("digit_6", 54),
  ("digit_7", 55), ("digit_8", 56), ("digit_9", 57), ("letter_A", 65), ("letter_B", 66), ("letter_C", 67), ("letter_D", 68),
  ("letter_E", 69), ("letter_F", 70), ("letter_G", 71), ("letter_H", 72), ("letter_I", 73), ("letter_J", 74), ("letter_K", 75),
  ("letter_L", 76), ("letter_M", 77), ("letter_N", 78), ("letter_O", 79), ("letter_P", 80), ("letter_Q", 81), ("letter_R", 82),
  ("letter_S", 83), ("letter_T", 84), ("letter_U", 85), ("letter_V", 86), ("letter_W", 87), ("letter_X", 88), ("letter_Y", 89),
  ("letter_Z", 90), ("letter_a", 97), ("letter_b", 98), ("letter_c", 99), ("letter_d", 100), ("letter_e", 101),
  ("letter_f", 102), ("letter_g", 103), ("letter_h", 104), ("letter_i", 105), ("letter_j", 106), ("letter_k", 107),
  ("letter_l", 108), ("letter_m", 109), ("letter_n", 110), ("letter_o", 111), ("letter_p", 112), ("letter_q", 113),
  ("letter_r", 114), ("letter_s", 115), ("letter_t", 116), ("letter_u", 117), ("letter_v", 118), ("letter_w", 119),
  ("letter_x", 120), ("letter_y", 121), ("letter_z", 122), ("left_square_bracket", 91), ("back_slash", 92),
  ("right_square_bracket", 93), ("hat", 94), ("underscore", 95), ("backtick", 96), ("left_brace", 123), ("bar", 124),
  ("right_brace", 125), ("tilde", 126)]

end Verif.Model.Limits
