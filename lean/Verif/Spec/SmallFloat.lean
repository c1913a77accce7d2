import Verif.Spec.Float

/-!
# Rounding in formats with bounded exponents

IEEE 754 `roundTiesToEven` with gradual underflow and overflow.  Zeros have no sign here.
-/

namespace Verif.Spec.SmallFloat

open Verif.Spec.Float

/-- The nearest number with `p` significant bits and an exponent of at least `emin`, the even one of two. -/
def rounded (p : ℕ) (emin : ℤ) (z : ℚ) : ℚ :=
  if |z| < 2 ^ emin then roundEven (z / 2 ^ (emin - p + 1)) * 2 ^ (emin - p + 1) else rnd p z

/-- What an operation gives. -/
inductive Result where
  | finite (q : ℚ)
  | infinite (negative : Bool)
  deriving DecidableEq

/-- The result of rounding, which overflows if its magnitude is above `greatest`. -/
def result (p : ℕ) (emin : ℤ) (greatest z : ℚ) : Result :=
  let r := rounded p emin z
  if greatest < |r| then .infinite (decide (r < 0)) else .finite r

/-- `binary16`. -/
def half (z : ℚ) : Result := result 11 (-14) 65504 z

/-- `binary32`. -/
def single (z : ℚ) : Result := result 24 (-126) ((2 ^ 24 - 1) * 2 ^ 104) z

/-- The finite numbers of `binary16`. -/
def IsHalf (x : ℚ) : Prop := ∃ m k : ℤ, |m| < 2 ^ 11 ∧ -24 ≤ k ∧ k ≤ 5 ∧ x = m * 2 ^ k

end Verif.Spec.SmallFloat
