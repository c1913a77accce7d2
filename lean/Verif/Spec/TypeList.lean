import Mathlib.Data.List.Basic

/-!
# Specification: lists of types
-/

namespace Verif.Spec.TypeList

/-- `r` is the `n` consecutive elements of `l` that begin at position `s`. -/
def Piece {α : Type} (l : List α) (s n : ℕ) (r : List α) : Prop :=
  ∃ before after, l = before ++ r ++ after ∧ before.length = s ∧ r.length = n

/-- `a` is the first element of `l` that measures most (`worse x y`: `x` measures less than `y`). -/
def FirstBest {α : Type} (worse : α → α → Prop) (l : List α) (a : α) : Prop :=
  ∃ before after, l = before ++ a :: after ∧ (∀ b ∈ before, worse b a) ∧ ∀ b ∈ after, ¬worse a b

/-- How a type is written down: names, and brackets around the elements of a list. -/
inductive Token where
  | open | close
  | name (n : ℕ)
  deriving DecidableEq

/-- Whether a token is a name. -/
def Token.isName : Token → Bool
  | .name _ => true
  | _ => false

end Verif.Spec.TypeList
