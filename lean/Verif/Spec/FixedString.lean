/-! # Strings: indices, substrings, lexicographic order -/
namespace Verif.Spec.FixedString

/-- an index into a string of `n` characters: a negative one counts from the end; out of range means the nearest end -/
def position (n : Nat) (idx : Int) : Nat :=
  if idx < 0 then (n + idx).toNat else min n idx.toNat

/-- the characters from position `i` up to, not including, position `j` -/
def segment {α : Type} (t : List α) (i j : Nat) : List α := (t.take j).drop i

/-- `a` comes before `b`: at the first difference `a` has the smaller character, or `a` ends there -/
def Before (a b : List Nat) : Prop :=
  ∃ p : List Nat, (∃ x y a' b', a = p ++ x :: a' ∧ b = p ++ y :: b' ∧ x < y) ∨ (∃ y b', a = p ∧ b = p ++ y :: b')

end Verif.Spec.FixedString
