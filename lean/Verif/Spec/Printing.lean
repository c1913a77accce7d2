import Mathlib.Data.Nat.Notation
import Mathlib.Data.Int.Notation

/-!
# Specification of printed text

What the text of a vector or matrix is, and how its numbers are read back.
-/

namespace Verif.Spec.Printing

/-- The items with a separator between them. -/
def join (sep : List Char) : List (List Char) → List Char
  | [] => []
  | [x] => x
  | x :: y :: l => x ++ sep ++ join sep (y :: l)

/-- The text at the right of a column of the given width. -/
def atRight (width : ℤ) (fill : Char) (text : List Char) : List Char :=
  List.replicate (width.toNat - text.length) fill ++ text

/-- `{ a, b, c }`. -/
def braces (inner : List Char) : List Char := "{ ".toList ++ inner ++ " }".toList

/-- `a, b, c`. -/
def commas (items : List (List Char)) : List Char := join ", ".toList items

/-- The number of significant digits for a floating-point type of the given size in bytes. -/
def significant (size : ℕ) : ℤ := if size < 4 then 3 else if size < 8 then 6 else if size = 8 then 9 else 12

/-- The value of a digit. -/
def digitOf (c : Char) : Option ℕ :=
  if '0' ≤ c ∧ c ≤ '9' then some (c.toNat - '0'.toNat) else none

/-- The number read so far: its sign and magnitude. -/
def signed : Option (Bool × ℕ) → List ℤ
  | none => []
  | some (true, n) => [-(n : ℤ)]
  | some (false, n) => [(n : ℤ)]

/-- The numbers in a text from left to right, as a person reads them: a number is an optional sign and a run of digits.  The
first argument is the number being read. -/
def readFrom : Option (Bool × ℕ) → List Char → List ℤ
  | st, [] => signed st
  | st, c :: cs =>
    match digitOf c with
    | some d => match st with
      | none => readFrom (some (false, d)) cs
      | some (s, n) => readFrom (some (s, 10 * n + d)) cs
    | none =>
      if c = '-' then signed st ++ readFrom (some (true, 0)) cs
      else if c = '+' then signed st ++ readFrom (some (false, 0)) cs
      else signed st ++ readFrom none cs

/-- The numbers in a text. -/
def numbers (text : List Char) : List ℤ := readFrom none text

/-- The character is not part of a number. -/
def Separator (c : Char) : Prop := digitOf c = none ∧ c ≠ '-' ∧ c ≠ '+'

end Verif.Spec.Printing
