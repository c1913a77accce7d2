import Verif.Spec.CInt
import Verif.Model.CoreUtils
/-!
# Model of fixed_string

Models `/repo/include/muu/fixed_string.h`. A `fixed_string<Character, Length>` is its length and its array of `Length + 1`
characters (line 101); a character is its code unit, `0` the null character.
-/
namespace Verif.Model.FixedString
open Verif.Spec.CInt Verif.Model.CInt Verif.Model.CoreUtils

structure Str where
  len : Nat
  chars : List Nat
deriving DecidableEq

/-- value initialisation, and `_chars_{}`, e.g. lines 160 and 653–656 -/
def zeros (L : Nat) : Str := ⟨L, List.replicate (L + 1) 0⟩

/-- the private constructors, lines 109–131: the first `n` characters given, the others zero -/
def ofIndices (L n : Nat) (get : Nat → Nat) : Str := ⟨L, (List.range n).map get ++ List.replicate (L + 1 - n) 0⟩

/-- from an array, lines 150–161 -/
def ofArray (L : Nat) (arr : List Nat) : Str :=
  if arr.length ≠ 0 ∧ L ≠ 0 then ofIndices L (min L arr.length) (fun i => arr.getD i 0) else zeros L

/-- from a string_view, lines 166–177 with 125–131 -/
def ofView (L : Nat) (v : List Nat) : Str :=
  if L ≠ 0 then ofIndices L L (fun i => if i < v.length then v.getD i 0 else 0) else zeros L

/-- conversion from another length, lines 182–193 -/
def convert (L : Nat) (s : Str) : Str :=
  if s.len ≠ 0 ∧ L ≠ 0 then ofIndices L (min L s.len) (fun i => s.chars.getD i 0) else zeros L

/-- filled with one character, lines 197–200 with 117–123 -/
def fill (L c : Nat) : Str := ofIndices L L (fun _ => c)

/-- from a pointer and a length, lines 203–215; `p`: the characters from the pointer on -/
def ofPtr (L : Nat) (p : List Nat) (len : Nat) : Str :=
  if len ≠ 0 ∧ L ≠ 0 then ofIndices L (min L len) (fun i => p.getD i 0) else zeros L

/-- `str[idx] = c`, lines 286–291; `none`: the assumption idx < Length is false -/
def Str.set (s : Str) (idx c : Nat) : Option Str := if idx < s.len then some ⟨s.len, s.chars.set idx c⟩ else none

/-- the loops of lines 561–562 and 585–586: `result[off + i] = rhs[i]` for `i` from `i` on, `n` times -/
def copyLoop (result : Str) (off : Nat) (rhs : Str) (i : Nat) : Nat → Option Str
  | 0 => some result
  | n + 1 => if i < rhs.len then
      match result.set (off + i) (rhs.chars.getD i 0) with
      | none => none
      | some r => copyLoop r off rhs (i + 1) n
    else none

/-- operator+ of two strings, lines 546–565 -/
def concat (lhs rhs : Str) : Option Str :=
  if lhs.len = 0 ∧ rhs.len = 0 then some (zeros 0)
  else if rhs.len = 0 then some lhs
  else if lhs.len = 0 then some rhs
  else copyLoop (convert (lhs.len + rhs.len) lhs) lhs.len rhs 0 rhs.len

/-- operator+ of a string and a character, lines 568–575 -/
def appendChar (lhs : Str) (c : Nat) : Option Str := (convert (lhs.len + 1) lhs).set lhs.len c

/-- operator+ of a character and a string, lines 578–589 -/
def prependChar (c : Nat) (rhs : Str) : Option Str :=
  if rhs.len > 0 then copyLoop (fill (rhs.len + 1) c) 1 rhs 0 rhs.len else some (fill (rhs.len + 1) c)

/-- view, lines 599–610 -/
def Str.view (s : Str) : List Nat := s.chars.take s.len

/-- clamp_index, lines 621–646, for an index of type `t` of at most 64 bits -/
def clampIndex (len : Nat) (t : Ty) (idx : Int) : Nat :=
  if len = 0 then 0
  else if t.signed ∧ idx < 0 then
    if idx = t.lo then 0
    else
      let abs := (conv ⟨64, false⟩ (-idx)).toNat
      if abs ≥ len then 0 else len - abs
  else clamp (fun a b : Nat => a < b) (conv ⟨64, false⟩ idx).toNat 0 len

/-- substr_impl, lines 651–668 -/
def substrImpl (s : Str) (start len : Nat) : Str :=
  if s.len = 0 ∨ len = 0 ∨ start ≥ s.len then zeros 0
  else
    let lt := fun a b : Nat => decide (a < b)
    let e := min2 lt (start + min2 lt s.len len) s.len
    let n := e - start
    if n = 0 then zeros 0
    else if start = 0 then convert n s
    else ofPtr n (s.chars.drop start) n

/-- slice_impl, lines 670–678 -/
def sliceImpl (s : Str) (start e : Nat) : Str := if e ≤ start then zeros 0 else substrImpl s start (e - start)

/-- substr, lines 691–699 -/
def substr (s : Str) (t : Ty) (start : Int) (len : Nat) : Str := substrImpl s (clampIndex s.len t start) len

/-- slice, lines 709–720 -/
def slice (s : Str) (t : Ty) (start : Int) (t' : Ty) (e : Int) : Str :=
  sliceImpl s (clampIndex s.len t start) (clampIndex s.len t' e)

/-- the loop of operator==, lines 739–743 -/
def eqLoop (a b : Str) (i : Nat) : Nat → Bool
  | 0 => true
  | n + 1 => if a.chars.getD i 0 ≠ b.chars.getD i 0 then false else eqLoop a b (i + 1) n

/-- operator==, lines 730–752; `same`: both are the same object -/
def eq (same : Bool) (a b : Str) : Bool :=
  if a.len = b.len ∧ a.len > 0 then if same then true else eqLoop a b 0 a.len
  else a.len = b.len

/-- std::char_traits::compare of the first `n` characters: by unsigned code units -/
def traitsCompare : List Nat → List Nat → Nat → Int
  | _, _, 0 => 0
  | x :: a, y :: b, n + 1 => if x < y then -1 else if y < x then 1 else traitsCompare a b n
  | _, _, _ => 0

/-- compare, lines 763–805 -/
def compare (same : Bool) (a b : Str) : Int :=
  if a.len ≠ 0 ∧ b.len ≠ 0 then
    if a.len = b.len then
      if same then 1 else traitsCompare a.chars b.chars a.len
    else
      let eqResult : Int := if a.len < b.len then -1 else 1
      let r := traitsCompare a.chars b.chars (min2 (fun a b : Nat => a < b) a.len b.len)
      if r = 0 then eqResult else r
  else if a.len = b.len then 0
  else if a.len = 0 then -1
  else 1

/-- operator<, lines 816–821: the one of C++17 -/
def less17 (same : Bool) (a b : Str) : Bool := compare same a b < 0

/-- the value of a `char` with the given code unit, where char is signed -/
def signedChar (c : Nat) : Int := if c ≥ 128 then (c : Int) - 256 else c

/-- the defaulted operator<=>, line 848: member-wise, that is by the values of the characters of the whole array,
    including the terminator -/
def spaceship : List Nat → List Nat → Int
  | x :: a, y :: b => if signedChar x < signedChar y then -1 else if signedChar y < signedChar x then 1 else spaceship a b
  | _, _ => 0

/-- `a < b` for strings of char in C++20: for strings of the same type the defaulted operator<=> (not a template) is
    preferred to the template operator<; for different lengths there is only the latter -/
def less20 (same : Bool) (a b : Str) : Bool :=
  if a.len = b.len then spaceship a.chars b.chars < 0 else less17 same a b

end Verif.Model.FixedString
