import Verif.Spec.Float
/-!
# Model of `include/muu/packed_unit_vector.h`

Components are rational numbers; every floating-point operation of the packing is rounded to `p` bits (24 for `float`, 53 for
`double`), without contraction into fused operations, overflow or subnormals. `n` is the size of the integer in bits (8,
16, 32 or 64). `none` is undefined behaviour: a false `MUU_ASSUME`, or converting a NaN or infinity to an integer.
-/
namespace Verif.Model.PackedUnit
open Verif.Spec.Float

/-- lines 33-38 `x_bits`, `y_bits`, with `evenly_distribute` (include/muu/math.h:2380-2388) of the `n - d` value bits over `d - 1`
stored components -/
def xBits (n d : ℕ) : ℕ := (n - d) / (d - 1) + if 0 < (n - d) % (d - 1) then 1 else 0
def yBits (n d : ℕ) : ℕ := if 3 ≤ d then (n - d) / (d - 1) + if 1 < (n - d) % (d - 1) then 1 else 0 else 0

/-- lines 44-45 -/
def xRange (n d : ℕ) : ℕ := 2 ^ xBits n d - 1
def yRange (n d : ℕ) : ℕ := 2 ^ yBits n d - 1

/-- lines 48-49 -/
def xMask (n d : ℕ) : ℕ := xRange n d <<< yBits n d
def yMask (n d : ℕ) : ℕ := yRange n d

/-- lines 54-56: the sign bits of x, y, z (0, 1, 2) -/
def signBit (n i : ℕ) : ℕ := 2 ^ (n - 1 - i)

/-- lines 75-78: the sign bit of a component; -/
def signOf (n i : ℕ) (v : ℚ) : ℕ := if v ≥ 0 then 0 else signBit n i
/-- and its absolute value -/
def magnitude (v : ℚ) : ℚ := if v ≥ 0 then v else -v

/-- conversion of a floating-point value to `arith_type` (at least 32 bits; 64 for a 64-bit integer) -/
def toArith (n : ℕ) (q : ℚ) : Option ℕ := if 0 ≤ q ∧ q < 2 ^ max n 32 then some ⌊q⌋₊ else none

/-- `MUU_ASSUME` -/
def assume (c : Prop) [Decidable c] {α : Type} (x : Option α) : Option α := if c then x else none

/-- line 92 and line 98: a projected component to an integer coordinate -/
def quantize (n d p : ℕ) (v : ℚ) : Option ℕ :=
  toArith n (rnd p (rnd p (v * rnd p ((xRange n d - 1 : ℕ) : ℚ)) + 1 / 2))

/-- lines 101-111: folding the coordinate pair into the value bits -/
def encode3 (n ix iy : ℕ) : Option ℕ :=
  let R := xRange n 3
  let ix' := if iy ≥ 2 ^ xBits n 3 / 2 then R - ix else ix
  let iy' := if iy ≥ 2 ^ xBits n 3 / 2 then R - iy else iy
  assume (ix' ≤ R) <| assume (iy' ≤ yRange n 3) <| some ((ix' <<< yBits n 3) ||| iy')

/-- lines 60-122 `pack_vector` in three dimensions (then stored in the integer, line 252) -/
def pack3 (n p : ℕ) (x y z : ℚ) : Option ℕ :=
  let b := signOf n 0 x ||| signOf n 1 y ||| signOf n 2 z
  let x := magnitude x
  let y := magnitude y
  let z := magnitude z
  let sum := rnd p (rnd p (x + y) + z)
  if sum = 0 then none
  else
    let proj := rnd p (1 / sum)
    (quantize n 3 p (rnd p (x * proj))).bind fun ix => assume (ix ≤ xRange n 3) <|
    (quantize n 3 p (rnd p (y * proj))).bind fun iy => assume (iy ≤ xRange n 3) <|
    (encode3 n ix iy).bind fun v =>
    let b := b ||| v
    assume (b ≤ 2 ^ n - 1) <| some b

/-- lines 60-122 `pack_vector` in two dimensions; with `assumes = false`, as built where `MUU_ASSUME` expands to nothing
(include/muu/preprocessor.h:683-697) -/
def pack2 (assumes : Bool) (n p : ℕ) (x y : ℚ) : Option ℕ :=
  let b := signOf n 0 x ||| signOf n 1 y
  let x := magnitude x
  let y := magnitude y
  let sum := rnd p (x + y)
  if sum = 0 then none
  else
    (quantize n 2 p (rnd p (x / sum))).bind fun ix => assume (assumes = false ∨ ix ≤ xRange n 2) <|
    let b := b ||| ix
    assume (assumes = false ∨ b ≤ 2 ^ n - 1) <| some b

/-- lines 275-293 `x_negative`, `y_negative`, `z_negative` (0, 1, 2) -/
def negative (n i b : ℕ) : Bool := (b &&& signBit n i) ≠ 0

/-- lines 143-150: the coordinate pair -/
def decode3 (n b : ℕ) : ℕ × ℕ :=
  let ix := (b &&& xMask n 3) >>> yBits n 3
  let iy := b &&& yMask n 3
  if ix + iy > xRange n 3 then (xRange n 3 - ix, xRange n 3 - iy) else (ix, iy)

/-- `static_cast<T>(1 - (static_cast<int>(!!(b & sign_bit)) * 2))` -/
def sign (n i b : ℕ) : ℚ := if negative n i b then -1 else 1

/-- lines 141-159 `unpack_vector` in three dimensions, before `normalize`, which changes only the length. The rounding of the
floating-point operations is left out. -/
def unpack3 (n b : ℕ) : ℚ × ℚ × ℚ :=
  let x := ((decode3 n b).1 : ℚ) / xRange n 3
  let y := ((decode3 n b).2 : ℚ) / xRange n 3
  (sign n 0 b * x, sign n 1 b * y, sign n 2 b * (1 - x - y))

/-- lines 160-166 `unpack_vector` in two dimensions -/
def unpack2 (n b : ℕ) : ℚ × ℚ :=
  let x := ((b &&& xRange n 2 : ℕ) : ℚ) / xRange n 2
  (sign n 0 b * x, sign n 1 b * (1 - x))

end Verif.Model.PackedUnit
