import Mathlib.Data.Rat.Defs
import Mathlib.Algebra.Order.Field.Power
import Mathlib.Algebra.Order.Ring.Rat

/-!
# What floating-point encodings stand for

The binary interchange formats of IEEE 754 (`w` exponent bits, `t` trailing significand bits) and the 80-bit extended
format of the x87, which has an explicit integer bit.
-/

namespace Verif.Spec.Ieee

/-- What an encoding stands for. -/
inductive Datum where
  | finite (q : ℚ)
  | infinite (negative : Bool)
  | nan
  /-- an encoding of the extended format that stands for nothing -/
  | invalid
  deriving DecidableEq

/-- An infinity or not a number. -/
def Datum.Special : Datum → Prop
  | .infinite _ => True
  | .nan => True
  | _ => False

/-- The sign as a factor. -/
def signed (negative : Bool) (q : ℚ) : ℚ := if negative then -q else q

/-- IEEE 754-2008, 3.4. -/
def interchange (w t b : ℕ) : Datum :=
  let trailing : ℕ := b % 2 ^ t
  let exponent : ℕ := b / 2 ^ t % 2 ^ w
  let negative := decide (b / 2 ^ (t + w) % 2 = 1)
  if exponent = 2 ^ w - 1 then if trailing = 0 then .infinite negative else .nan
  else if exponent = 0 then .finite (signed negative (trailing * 2 ^ ((2 : ℤ) - 2 ^ (w - 1) - t)))
  else .finite (signed negative ((2 ^ t + trailing : ℕ) * 2 ^ ((exponent : ℤ) + 1 - 2 ^ (w - 1) - t)))

/-- The 80-bit extended format. -/
def extended (b : ℕ) : Datum :=
  let fraction : ℕ := b % 2 ^ 63
  let integer : ℕ := b / 2 ^ 63 % 2
  let exponent : ℕ := b / 2 ^ 64 % 2 ^ 15
  let negative := decide (b / 2 ^ 79 % 2 = 1)
  if exponent = 2 ^ 15 - 1 then
    if integer = 0 then .invalid else if fraction = 0 then .infinite negative else .nan
  else if exponent = 0 then .finite (signed negative ((integer * 2 ^ 63 + fraction : ℕ) * 2 ^ (-16445 : ℤ)))
  else if integer = 0 then .invalid
  else .finite (signed negative ((2 ^ 63 + fraction : ℕ) * 2 ^ ((exponent : ℤ) - 16446)))

end Verif.Spec.Ieee
