import Mathlib.Analysis.SpecialFunctions.Trigonometric.Basic
import Mathlib.Analysis.SpecialFunctions.Sqrt

/-!
# Model of the compile-time mathematics of `include/muu/math.h`

The functions that `math.h` uses in constant expressions: `floor`, `ceil`, `sqrt`, `cos`, `sin`, `tan`, `asin`, `acos`,
`atan`, `atan2`, and the functions built on `floor`: `normalize_angle`, `normalize_angle_signed`.

Simplifications: arithmetic is exact, over the reals, and the constants (`constants<T>::pi` and so on) are the numbers
they are named after (what the literals are is the subject of `Constants.lean`).  There are no infinities or NaN.
`none` stands for an evaluation that does not compile: a `throw`, an overflow, a conversion out of range, a division by
zero, or a recursion deeper than the compiler allows; the depth it allows is a parameter, and so is the number of
iterations, `max_constexpr_math_iterations`.
-/

namespace Verif.Model.ConstMath

open Classical in
section
noncomputable section

/-- `max_constexpr_math_iterations`: `math.h` 39. -/
def maxIterations : ℕ := 100

/-- `intmax_t` arithmetic: no result on overflow. -/
def intmax (z : ℤ) : Option ℤ := if -2 ^ 63 ≤ z ∧ z < 2 ^ 63 then some z else none

/-- `static_cast<intmax_t>(x)` of a floating-point value: truncation, undefined when the result is out of range. -/
def toIntmax (x : ℝ) : Option ℤ := intmax (if 0 ≤ x then ⌊x⌋ else ⌈x⌉)

/-- `floor_naive`: `math.h` 605-615. -/
def floorNaive (x : ℝ) : Option ℝ :=
  if x = 0 then some x
  else (toIntmax x).bind fun t => (intmax (t - if x < (t : ℝ) then 1 else 0)).map fun z => (z : ℝ)

/-- `ceil_naive`: `math.h` 739-749. -/
def ceilNaive (x : ℝ) : Option ℝ :=
  if x = 0 then some x
  else (toIntmax x).bind fun t => (intmax (t + if x > (t : ℝ) then 1 else 0)).map fun z => (z : ℝ)

/-- The Newton-Raphson loop of `sqrt_naive`: `math.h` 905-913; `n` iterations remain. -/
def sqrtLoop (x : ℝ) : ℕ → ℝ → ℝ → ℝ
  | 0, curr, _ => curr
  | n + 1, curr, prev => if curr ≠ prev then sqrtLoop x n (1 / 2 * (curr + x / curr)) curr else curr

/-- `sqrt_naive`: `math.h` 876-915. -/
def sqrtNaive (n : ℕ) (x : ℝ) : Option ℝ :=
  if x = 0 then some x
  else if x < 0 then none
  else if x = 1 then some 1
  else some (sqrtLoop x n x 0)

/-- Reduction to one period: `math.h` 1105-1106, 1255-1256, 1406-1407. -/
def reduce (period x : ℝ) : Option ℝ :=
  if x < 0 ∨ x > period then (floorNaive (x * (1 / period))).map fun k => x - period * k else some x

/-- The Taylor series of `cos_naive`: `math.h` 1128-1135. -/
def cosLoop (x : ℝ) (n i : ℕ) (term sum : ℝ) : ℝ :=
  if i < n then
    let term' := term * (-x * x / (2 * i * (2 * i - 1)))
    let sum' := sum + term'
    if sum' = sum then sum' else cosLoop x n (i + 1) term' sum'
  else sum
termination_by n - i

/-- The Taylor series of `sin_naive`: `math.h` 1279-1286. -/
def sinLoop (x : ℝ) (n i : ℕ) (term sum : ℝ) : ℝ :=
  if i < n * 2 then
    let term' := -term * x * x / (i * (i - 1))
    let sum' := sum + term'
    if sum' = sum then sum' else sinLoop x n (i + 2) term' sum'
  else sum
termination_by n * 2 - i

open Real (pi)

mutual
/-- `cos_naive`: `math.h` 1098-1137; the first argument is the number of iterations, the second the depth of recursion
the compiler allows. -/
def cosNaive (n : ℕ) : ℕ → ℝ → Option ℝ
  | 0, _ => none
  | depth + 1, x =>
    (reduce (2 * pi) x).bind fun x =>
    if x = 0 ∨ x = 2 * pi then some 1
    else if x = pi / 2 ∨ x = 3 * pi / 2 then some 0
    else if x = pi then some (-1)
    else if x > pi / 2 ∧ x < pi then (cosNaive n depth (pi - x)).map fun r => -r
    else if x > pi ∧ x < 3 * pi / 2 then (cosNaive n depth (x - pi)).map fun r => -r
    else if x > 3 * pi / 2 ∧ x < 2 * pi then cosNaive n depth (2 * pi - x)
    else if x > pi / 4 ∧ x < pi / 2 then sinNaive n depth (pi / 2 - x)
    else some (let term := -x * x / 2; cosLoop x n 2 term (1 + term))
/-- `sin_naive`: `math.h` 1246-1288. -/
def sinNaive (n : ℕ) : ℕ → ℝ → Option ℝ
  | 0, _ => none
  | depth + 1, x =>
    if x = 0 then some x
    else (reduce (2 * pi) x).bind fun x =>
    if x = pi then some 0
    else if x = pi / 2 then some 1
    else if x = 3 * pi / 2 then some (-1)
    else if x > pi / 2 ∧ x < pi then sinNaive n depth (pi - x)
    else if x > pi ∧ x < 3 * pi / 2 then (sinNaive n depth (x - pi)).map fun r => -r
    else if x > 3 * pi / 2 ∧ x < 2 * pi then (sinNaive n depth (2 * pi - x)).map fun r => -r
    else if x > pi / 4 ∧ x < pi / 2 then cosNaive n depth (pi / 2 - x)
    else some (sinLoop x n 3 x x)
end

/-- Division in a constant expression. -/
def divide (a b : ℝ) : Option ℝ := if b = 0 then none else some (a / b)

/-- `tan_naive`: `math.h` 1397-1429. -/
def tanNaive (n : ℕ) : ℕ → ℝ → Option ℝ
  | 0, _ => none
  | depth + 1, x =>
    if x = 0 then some x
    else (reduce pi x).bind fun x =>
    if x = pi then some 0
    else if x = pi / 4 then some 1
    else if x = pi / 8 then some (√2 - 1)
    else if x > pi / 2 ∧ x < pi then (tanNaive n depth (pi - x)).map fun r => -r
    else if x > pi / 4 ∧ x < pi / 2 then (tanNaive n depth (pi / 2 - x)).bind fun r => divide 1 r
    else if x > pi / 8 ∧ x < pi / 4 then (tanNaive n depth (x / 2)).bind fun r => divide (r + r) (1 - r * r)
    else (sinNaive n depth x).bind fun s => (cosNaive n depth x).bind fun c => divide s c

/-- The Taylor series of `asin_naive`: `math.h` 1708-1715. -/
def asinLoop (x : ℝ) (n i : ℕ) (term sum : ℝ) : ℝ :=
  if i < n * 2 then
    let sum' := sum + term * i / (i + 2 : ℕ)
    let term' := term * (x * x * i / (i + 3 : ℕ))
    if sum = sum' then sum' else asinLoop x n (i + 2) term' sum'
  else sum
termination_by n * 2 - i

/-- `asin_naive`: `math.h` 1676-1717. -/
def asinNaive (n : ℕ) : ℕ → ℝ → Option ℝ
  | 0, _ => none
  | depth + 1, x =>
    if x = 0 then some x
    else if x < -1 ∨ x > 1 then none
    else if x = -1 then some (-(pi / 2))
    else if x = 1 then some (pi / 2)
    else if x > 1 / √2 then
      (sqrtNaive n (1 - x * x)).bind fun s => (asinNaive n depth s).map fun r => pi / 2 - r
    else if x < -(1 / √2) then
      (sqrtNaive n (1 - x * x)).bind fun s => (asinNaive n depth s).map fun r => -(pi / 2) + r
    else some (asinLoop x n 1 (x * x * x / 2) x)

/-- `acos_naive`: `math.h` 1547-1566. -/
def acosNaive (n depth : ℕ) (x : ℝ) : Option ℝ :=
  if x < -1 ∨ x > 1 then none
  else if x = -1 then some pi
  else if x = 1 then some 0
  else (asinNaive n depth x).map fun r => pi / 2 - r

/-- Euler's series in `atan_naive`: `math.h` 1857-1864. -/
def atanLoop (xSq : ℝ) (n i : ℕ) (prod sum : ℝ) : ℝ :=
  if i ≤ n then
    let prod' := prod * ((2 * i * xSq) / ((2 * i + 1) * (xSq + 1)))
    let sum' := sum + prod'
    if sum' = sum then sum' else atanLoop xSq n (i + 1) prod' sum'
  else sum
termination_by n + 1 - i

/-- `atan_naive`: `math.h` 1826-1866. -/
def atanNaive (n : ℕ) : ℕ → ℝ → Option ℝ
  | 0, _ => none
  | depth + 1, x =>
    if x = 0 then some x
    else if x = 1 then some (pi / 4)
    else if x < 0 then (atanNaive n depth (-x)).map fun r => -r
    else if x > 1 then (atanNaive n depth (1 / x)).map fun r => pi / 2 - r
    else if x > 2 - √3 then (atanNaive n depth ((√3 * x - 1) / (√3 + x))).map fun r => pi / 6 + r
    else
      let xSq := x * x
      let mult := x / (1 + xSq)
      some (atanLoop xSq n 1 1 1 * mult)

/-- `atan2_naive`: `math.h` 1975-2003. -/
def atan2Naive (n depth : ℕ) (y x : ℝ) : Option ℝ :=
  if x > 0 then atanNaive n depth (y / x)
  else if x < 0 ∧ y ≥ 0 then (atanNaive n depth (y / x)).map fun r => r + pi
  else if x < 0 ∧ y < 0 then (atanNaive n depth (y / x)).map fun r => r - pi
  else if x = 0 ∧ y > 0 then some (pi / 2)
  else if x = 0 ∧ y < 0 then some (-(pi / 2))
  else none

/-- `normalize_angle_`: `math.h` 2187-2196; `floor` is `floor_naive` in constant expressions and the machine's `floor`
at run time. -/
def normalizeAngle (floor : ℝ → Option ℝ) (val : ℝ) : Option ℝ :=
  if val < 0 ∨ val ≥ 2 * pi then (floor (val * (1 / (2 * pi)))).map fun k => val - 2 * pi * k else some val

/-- `normalize_angle_signed_`: `math.h` 2263-2276. -/
def normalizeAngleSigned (floor : ℝ → Option ℝ) (val : ℝ) : Option ℝ :=
  if val < -pi ∨ val ≥ pi then
    let val := val + pi
    (floor (val * (1 / (2 * pi)))).map fun k => val - 2 * pi * k - pi
  else some val

end
end

end Verif.Model.ConstMath
