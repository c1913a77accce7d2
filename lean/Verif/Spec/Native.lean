import Verif.Spec.Unicode
/-!
# Text whose byte order `muu` guesses correctly

`utf_decode` takes a UTF-16 or UTF-32 string without byte order mark for byte-swapped unless, among its first 16 code units,
zero high bytes outnumber zero low bytes (see C08, where this is shown to be wrong for other text). These are the texts
on which the guess is right, stated on the code points.
-/
namespace Verif.Spec

/-- A text of the basic multilingual plane that starts with no byte order mark (in either order) and has, among
its first 16 code points, more code points below 256 than multiples of 256. -/
structure Native16 (cs : List Nat) : Prop where
  scalar : ∀ c ∈ cs, IsScalar c
  bmp : ∀ c ∈ cs, c < 0x10000
  mark : cs.head? ≠ some 0xFEFF ∧ cs.head? ≠ some 0xFFFE
  low : ((cs.take 16).filter fun c => c % 256 == 0).length < ((cs.take 16).filter fun c => c / 256 == 0).length

/-- A text that starts with no byte order mark and has, among its first 16 code points, one that is not a multiple of 256. -/
structure Native32 (cs : List Nat) : Prop where
  scalar : ∀ c ∈ cs, IsScalar c
  mark : cs.head? ≠ some 0xFEFF
  low : ∃ c ∈ cs.take 16, c % 256 ≠ 0

end Verif.Spec
