import Verif.Model.Scalar
import Verif.Spec.SmallFloat
import Verif.Spec.IeeeArith
import Mathlib.Data.Real.Basic

/-!
# Model of the arithmetic of `muu::half` on a native 16-bit type (`include/muu/half.h`)

Finite values, without the sign of zero and with divisors that are not zero, except for `ieee`.  `float` arithmetic and conversions of the compiler round
to nearest (`Spec/SmallFloat.lean`).
-/

namespace Verif.Model.HalfArith

open Verif.Spec.SmallFloat Verif.Spec

/-- `half{ expr }`, where `expr` is a `float` expression with the exact value `z`: `half.h` 429, 435, 441, 447. -/
def viaSingle (z : ℚ) : Result :=
  match single z with
  | .finite q => half q
  | .infinite n => .infinite n

/-- `operator+`: `half.h` 426-430.  Every `half` is a `float`, so that the conversion of the operands does not round. -/
def add (a b : ℚ) : Result := viaSingle (a + b)

/-- `operator-`: `half.h` 432-436. -/
def sub (a b : ℚ) : Result := viaSingle (a - b)

/-- `operator*`: `half.h` 438-442. -/
def mul (a b : ℚ) : Result := viaSingle (a * b)

/-- `operator/`: `half.h` 444-448. -/
def div (a b : ℚ) : Result := viaSingle (a / b)

/-- The same operators for all values, with infinities, NaN and signed zeros: `half.h` 426-448. -/
def ieee (op : IeeeArith.Number → IeeeArith.Number → IeeeArith.Number) (lhs rhs : BitVec 16) : IeeeArith.Number :=
  (op (IeeeArith.value16 lhs) (IeeeArith.value16 rhs)).round32.round16

/-- `HALF_CONVERTING_BINARY_OP` with `*` and an integer: `half.h` 375-386, 465-479.  The integer is converted to `float`. -/
def mulInt (a : ℚ) (n : ℤ) : Result :=
  match single n with
  | .finite q => viaSingle (a * q)
  | .infinite s => .infinite s

/-- `HALF_CONVERTING_BINARY_OP` with `<` and an integer: `half.h` 375-386, 405-419. -/
def ltInt (a : ℚ) (n : ℤ) : Option Bool :=
  match single n with
  | .finite q => some (decide (a < q))
  | .infinite _ => none

/-- `lerp`: `half.h` 1223-1227. -/
def lerp (fused : Scalar.Fused) (start finish alpha : ℚ) : Result := half (Scalar.lerp fused 24 start finish alpha)

/-- `atan2`: `half.h` 1213-1217, where `single` is `muu::atan2` for `float` and `toHalf` the conversion.  It has parameters
`y` and `x` and passes them on as `x` and `y`. -/
def atan2 (single : ℝ → ℝ → ℝ) (toHalf : ℝ → ℝ) (y x : ℝ) : ℝ := toHalf (single x y)

end Verif.Model.HalfArith
