import Verif.Model.CInt
import Verif.Spec.Float

/-!
# Model of scalar functions of `include/muu/math.h`

`infinity_or_nan`, `abs` of integers, `approx_equal`, `lerp`, and the angle normalization with rounding.

Floating-point values are rational numbers; every operation rounds to `p` bits (`Spec.Float.rnd`: 24 for `float`, 53 for
`double`).  There are no infinities, no overflow and no subnormal numbers in the arithmetic.  `lerp` invites the compiler
to fuse a multiplication and the addition (`MUU_FMA_BLOCK`), and compilers may do so elsewhere by default, so that which
ones are fused is a parameter.
-/

namespace Verif.Model.Scalar

open Verif.Spec.Float

/-! ## Infinities and NaN -/

/-- `infinity_or_nan_traits<16, 11>::mask`: `math.h` 72-77. -/
def mask16 : ℕ := 0b0111110000000000
/-- `infinity_or_nan_traits<32, 24>::mask`: `math.h` 79-84. -/
def mask32 : ℕ := 0b01111111100000000000000000000000
/-- `infinity_or_nan_traits<64, 53>::mask`: `math.h` 86-91. -/
def mask64 : ℕ := 0b0111111111110000000000000000000000000000000000000000000000000000
/-- `infinity_or_nan_traits<128, 113>::mask`: `math.h` 111-115; the variant without 128-bit integers (116-130) tests the
same bits. -/
def mask128 : ℕ := 0x7FFF000000000000 * 2 ^ 64

/-- `infinity_or_nan_` for types whose bits are an integer: `math.h` 138-158. -/
def infinityOrNan (mask bits : ℕ) : Bool := bits &&& mask == mask

/-- A byte of the representation in memory, little-endian. -/
def byte (bits i : ℕ) : ℕ := bits / 2 ^ (8 * i) % 256

/-- `bit_pack<uint32_t>` of three bytes: `bit_pack.h`, first argument highest. -/
def pack3 (a b c : ℕ) : ℕ := (a * 256 + b) * 256 + c

/-- `infinity_or_nan_traits<TotalBits, 64>::check`: `math.h` 93-109; the representation may be padded above bit 79. -/
def infinityOrNanExtended (bits : ℕ) : Bool :=
  pack3 (byte bits 9) (byte bits 8) (byte bits 7) &&& pack3 0x7F 0xFF 0x80 == pack3 0x7F 0xFF 0x80

/-! ## Absolute values of integers -/

/-- `abs` of integers: `math.h` 287-300, 396-442.  `signed char` and `short` go through `int`; elsewhere negating the
smallest value overflows, which is undefined behaviour (`none`). -/
def absInt (t : Spec.CInt.Ty) (x : ℤ) : Option ℤ :=
  if t.signed = false then some x
  else if t.bits < 32 then some (CInt.conv t (if x < 0 then -x else x))
  else
    let r := if x < 0 then -x else x
    if t.lo ≤ r ∧ r ≤ t.hi then some r else none

/-! ## Comparison and interpolation -/

/-- `approx_equal`: `math.h` 450-507. -/
def approxEqual (p : ℕ) (a b epsilon : ℚ) : Bool := decide (|rnd p (b - a)| < epsilon)

/-- Which multiplication is fused with the addition. -/
inductive Fused where
  | none
  | left
  | right
  deriving DecidableEq

/-- `lerp`: `math.h` 2114-2136. -/
def lerp (fused : Fused) (p : ℕ) (start finish alpha : ℚ) : ℚ :=
  let rest := rnd p (1 - alpha)
  match fused with
  | .none => rnd p (rnd p (start * rest) + rnd p (finish * alpha))
  | .left => rnd p (start * rest + rnd p (finish * alpha))
  | .right => rnd p (rnd p (start * rest) + finish * alpha)

/-! ## Angles -/

/-- `constants<T>::two_pi`: `core_constants.h` 218. -/
def twoPi (p : ℕ) : ℚ := rnd p (6283185307179586476925 / 10 ^ 21)
/-- `constants<T>::one_over_two_pi`: `core_constants.h` 219. -/
def oneOverTwoPi (p : ℕ) : ℚ := rnd p (159154943091895335769 / 10 ^ 21)
/-- `constants<T>::pi`: `core_constants.h` 200. -/
def pi (p : ℕ) : ℚ := rnd p (3141592653589793238463 / 10 ^ 21)

/-- `normalize_angle_`: `math.h` 2187-2196. -/
def normalizeAngle (fused : Bool) (p : ℕ) (val : ℚ) : ℚ :=
  if val < 0 ∨ val ≥ twoPi p then
    let k : ℚ := ⌊rnd p (val * oneOverTwoPi p)⌋
    if fused then rnd p (val - twoPi p * k) else rnd p (val - rnd p (twoPi p * k))
  else val

/-- `normalize_angle_signed_`: `math.h` 2263-2276. -/
def normalizeAngleSigned (fused : Bool) (p : ℕ) (val : ℚ) : ℚ :=
  if val < -pi p ∨ val ≥ pi p then
    let val := rnd p (val + pi p)
    let k : ℚ := ⌊rnd p (val * oneOverTwoPi p)⌋
    let val := if fused then rnd p (val - twoPi p * k) else rnd p (val - rnd p (twoPi p * k))
    rnd p (val - pi p)
  else val

end Verif.Model.Scalar
