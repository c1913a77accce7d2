import Mathlib.Data.Nat.Notation
/-!
# Source locations

`/repo/include/muu/source_location.h`. A string in memory is a list of bytes; reading past it is undefined behaviour (`none`).
-/
namespace Verif.Model.SourceLocation

/-- The end of the string, source_location.h:29-32. -/
def length : List UInt8 → Option ℕ
  | [] => none
  | c :: l => if c ≠ 0 then (length l).map (· + 1) else some 0

/-- The loop over the string from its end, source_location.h:34-37: the position of the slash, if one is found; the outer `none` is a byte that is not in
memory. -/
def slash (path : List UInt8) : ℕ → Option (Option ℕ)
  | 0 => some none
  | i + 1 => do
    let c ← path[i]?
    if c = 92 ∨ c = 47 then some (some i) else slash path i

/-- sloc_file_name_tail, source_location.h:27-40: where in the string the tail begins. -/
def tail (path : List UInt8) : Option ℕ := do
  let len ← length path
  let s ← slash path len
  match s with
  | some i => some (i + 1)
  | none => some 0

/-- source_location, source_location.h:50-58, 96-99: the strings are kept as pointers, here the strings with their terminator. -/
structure Location where
  line : UInt32
  column : UInt32
  file : List UInt8
  function : List UInt8
  fileTail : List UInt8

/-- current, source_location.h:60-74. -/
def current (line column : UInt32) (file function : List UInt8) : Option Location := do
  let t ← tail file
  some ⟨line, column, file, function, file.drop t⟩

end Verif.Model.SourceLocation
