import Verif.Spec.CInt
import Verif.Spec.FloatFormat
import Mathlib.Order.Bounds.Basic
/-!
# Extreme values, decimal digits and the characters of ASCII
-/
namespace Verif.Spec.Limits
open Verif.Spec.CInt Verif.Spec.FloatFormat Verif.Spec.IeeeArith Verif.Spec.Float

/-- `float128_t` -/
def binary128 : Format := ⟨113, -16382, (2 ^ 113 - 1) * 2 ^ 16271⟩

/-- the `long double` of the x87 -/
def extended : Format := ⟨64, -16382, (2 ^ 64 - 1) * 2 ^ 16320⟩

/-- the values of an integer type -/
def values (t : Ty) : Set ℤ := {v | t.Has v}

/-- the rational numbers that a format has -/
def finite (f : Format) : Set ℚ := {q | ∃ x, f.Has x ∧ value x = some q}

/-- the rational numbers that 16 bits stand for -/
def halves : Set ℚ := {q | ∃ b, value (value16 b) = some q}

/-- `q` is written with at most `d` significant decimal digits. -/
def Decimal (d : ℕ) (q : ℚ) : Prop := ∃ m k : ℤ, |m| < 10 ^ d ∧ q = m * 10 ^ k

/-- Every number of at most `d` significant decimal digits is found again from the nearest number with `p` significant bits: no other
one is as near to that. -/
def Survives (p d : ℕ) : Prop := ∀ q, Decimal d q → ∀ r, Decimal d r → r ≠ q → |rnd p q - q| < |rnd p q - r|

/-- How many significant bits the types have (IEEE 754-2008, 3.6; that of the x87 has 64). -/
def significant : List (String × ℕ) := [("half", 11), ("_Float16", 11), ("float", binary32.p), ("double", binary64.p), ("long double", 64), ("float128_t", binary128.p)]

/-- The characters with a name, by that name. -/
def characters : List (String × Char) := [
  ("backspace", '\x08'), ("escape", '\x1b'), ("del", '\x7f'),
  ("tab", '\t'), ("new_line", '\n'), ("vertical_tab", '\x0b'), ("form_feed", '\x0c'), ("carriage_return", '\r'), ("space", ' '),
  ("exclamation_mark", '!'), ("quote", '"'), ("number_sign", '#'), ("dollar_sign", '$'), ("percent", '%'), ("ampersand", '&'),
  ("apostrophe", '\''), ("left_parenthesis", '('), ("right_parenthesis", ')'), ("asterisk", '*'), ("plus", '+'), ("comma", ','),
  ("hyphen", '-'), ("period", '.'), ("forward_slash", '/'),
  ("colon", ':'), ("semi_colon", ';'), ("less_than", '<'), ("equal", '='), ("greater_than", '>'), ("question_mark", '?'), ("at", '@'),
  ("digit_0", '0'), ("digit_1", '1'), ("digit_2", '2'), ("digit_3", '3'), ("digit_4", '4'), ("digit_5", '5'), ("digit_6", '6'),
  ("digit_7", '7'), ("digit_8", '8'), ("digit_9", '9'),
  ("letter_A", 'A'), ("letter_B", 'B'), ("letter_C", 'C'), ("letter_D", 'D'), ("letter_E", 'E'), ("letter_F", 'F'),
  ("letter_G", 'G'), ("letter_H", 'H'), ("letter_I", 'I'), ("letter_J", 'J'), ("letter_K", 'K'), ("letter_L", 'L'),
  ("letter_M", 'M'), ("letter_N", 'N'), ("letter_O", 'O'), ("letter_P", 'P'), ("letter_Q", 'Q'), ("letter_R", 'R'),
  ("letter_S", 'S'), ("letter_T", 'T'), ("letter_U", 'U'), ("letter_V", 'V'), ("letter_W", 'W'), ("letter_X", 'X'),
  ("letter_Y", 'Y'), ("letter_Z", 'Z'),
  ("letter_a", 'a'), ("letter_b", 'b'), ("letter_c", 'c'), ("letter_d", 'd'), ("letter_e", 'e'), ("letter_f", 'f'),
  ("letter_g", 'g'), ("letter_h", 'h'), ("letter_i", 'i'), ("letter_j", 'j'), ("letter_k", 'k'), ("letter_l", 'l'),
  ("letter_m", 'm'), ("letter_n", 'n'), ("letter_o", 'o'), ("letter_p", 'p'), ("letter_q", 'q'), ("letter_r", 'r'),
  ("letter_s", 's'), ("letter_t", 't'), ("letter_u", 'u'), ("letter_v", 'v'), ("letter_w", 'w'), ("letter_x", 'x'),
  ("letter_y", 'y'), ("letter_z", 'z'),
  ("left_square_bracket", '['), ("back_slash", '\\'), ("right_square_bracket", ']'), ("hat", '^'), ("underscore", '_'),
  ("backtick", '`'), ("left_brace", '{'), ("bar", '|'), ("right_brace", '}'), ("tilde", '~')]

/-- The integers with a name, by that name. -/
def integers : List (String × ℕ) := [("zero", 0), ("one", 1), ("two", 2), ("three", 3), ("four", 4), ("five", 5), ("six", 6),
  ("seven", 7), ("eight", 8), ("nine", 9), ("ten", 10), ("one_hundred", 100)]

end Verif.Spec.Limits
