import Verif.Spec.IeeeArith
/-!
# Floating-point formats
-/
namespace Verif.Spec.FloatFormat
open Verif.Spec.IeeeArith

/-- A binary format: significant bits, least exponent of a normal number, greatest finite number. -/
structure Format where
  p : ℕ
  emin : ℤ
  greatest : ℚ

/-- rounding to nearest, ties to even -/
def Format.round (f : Format) : Number → Number := Number.round f.p f.emin f.greatest

/-- `float` -/
def binary32 : Format := ⟨24, -126, (2 ^ 24 - 1) * 2 ^ 104⟩

/-- `double` -/
def binary64 : Format := ⟨53, -1022, (2 ^ 53 - 1) * 2 ^ 971⟩

/-- `x` is a number of the format, or not finite: an integer of `p` bits times a power of two that is not too small, not above the greatest -/
def Format.Has (f : Format) : Number → Prop
  | .fin _ a => (∃ (m : ℕ) (k : ℤ), m < 2 ^ f.p ∧ f.emin - f.p + 1 ≤ k ∧ a = m * 2 ^ k) ∧ a ≤ f.greatest
  | _ => True

/-- the rational number that a finite number is -/
def value : Number → Option ℚ
  | .fin s a => some (signed s a)
  | _ => none

/-- the unit round-off: half a unit in the last place of one -/
def Format.u (f : Format) : ℚ := 1 / 2 ^ f.p

/-- half the distance of subnormal numbers -/
def Format.tiny (f : Format) : ℚ := 2 ^ (f.emin - f.p)

end Verif.Spec.FloatFormat
