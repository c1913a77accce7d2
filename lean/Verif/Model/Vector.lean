import Mathlib.Analysis.SpecialFunctions.Trigonometric.Inverse
import Mathlib.Analysis.Real.Sqrt
import Verif.Model.Matrix

/-!
# Model of `muu::vector` (`include/muu/vector.h`)

A vector of `n` scalars is `Fin n → K`.  As for matrices (`Verif/Model/Matrix.lean`), arithmetic is exact and the
promotions to wider scalar types are not modelled; functions that take square roots are modelled over `ℝ`.
-/

namespace Verif.Model.Vector

open Verif.Model.Matrix (dotLoop)

variable {K : Type*}

section ring
variable [CommRing K]

/-- `dot`: `vector.h` 1219-1238.  `COMPONENTWISE_ACCUMULATE` (112-134) writes the sum out for up to four components
and loops from the fifth on; both add the products from left to right, which is `dotLoop`.  A vector has at least one
component (`static_assert`, line 236); the `0` case is unreachable. -/
def dot : {n : ℕ} → (Fin n → K) → (Fin n → K) → K
  | _ + 1, v, w => dotLoop v w
  | 0, _, _ => 0

/-- `length_squared`: `vector.h` 1072-1091. -/
def lengthSquared {n : ℕ} (v : Fin n → K) : K := dot v v

/-- `distance_squared`: `vector.h` 1146-1160. -/
def distanceSquared {n : ℕ} (p q : Fin n → K) : K := lengthSquared (fun i => q i - p i)

/-- `cross` (three dimensions only): `vector.h` 1290-1308. -/
def cross (v w : Fin 3 → K) : Fin 3 → K :=
  ![v 1 * w 2 - v 2 * w 1, v 2 * w 0 - v 0 * w 2, v 0 * w 1 - v 1 * w 0]

/-- `cross(v, axis)`: `vector.h` 1313-1337. -/
def crossAxisRight (v : Fin 3 → K) : Fin 3 → (Fin 3 → K)
  | 0 => ![0, v 2, -v 1]
  | 1 => ![-v 2, 0, v 0]
  | 2 => ![v 1, -v 0, 0]

/-- `cross(axis, v)`: `vector.h` 1342-1366. -/
def crossAxisLeft (v : Fin 3 → K) : Fin 3 → (Fin 3 → K)
  | 0 => ![0, -v 2, v 1]
  | 1 => ![v 2, 0, -v 0]
  | 2 => ![-v 1, v 0, 0]

/-- `constants::x_axis`, `y_axis`, `z_axis`: `vector.h` 3042-3095. -/
def axis : Fin 3 → (Fin 3 → K)
  | 0 => ![1, 0, 0]
  | 1 => ![0, 1, 0]
  | 2 => ![0, 0, 1]

/-- `lerp`: `vector.h` 2667-2691. -/
def lerp {n : ℕ} (start finish : Fin n → K) (alpha : K) : Fin n → K :=
  let invAlpha := 1 - alpha
  fun i => start i * invAlpha + finish i * alpha

end ring

section order
variable [LinearOrder K]

/-- `muu::min` of two scalars: `core_utils.h` 49-53. -/
def smin (a b : K) : K := if a < b then a else b

/-- `muu::max` of two scalars: `core_utils.h` 73-77. -/
def smax (a b : K) : K := if a < b then b else a

/-- `muu::clamp` of a scalar: `core_utils.h` 97-100. -/
def sclamp (v low high : K) : K := if v < low then low else if high < v then high else v

/-- `vector::min(v1, v2)`: `vector.h` 2383-2400. -/
def min {n : ℕ} (v w : Fin n → K) : Fin n → K := fun i => smin (v i) (w i)

/-- `vector::max(v1, v2)`: `vector.h` 2434-2451. -/
def max {n : ℕ} (v w : Fin n → K) : Fin n → K := fun i => smax (v i) (w i)

/-- `vector::min(begin, end)` of a range: `vector.h` 2403-2418; an empty range gives the zero vector (2407-2408). -/
def minRange {n : ℕ} [Zero K] : List (Fin n → K) → (Fin n → K)
  | [] => fun _ => 0
  | v :: vs => vs.foldl min v

/-- `vector::max(begin, end)` of a range: `vector.h` 2454-2468. -/
def maxRange {n : ℕ} [Zero K] : List (Fin n → K) → (Fin n → K)
  | [] => fun _ => 0
  | v :: vs => vs.foldl max v

/-- `vector::min(initializer_list)`: `vector.h` 2420-2430. -/
def minInit {n : ℕ} [Zero K] : List (Fin n → K) → (Fin n → K)
  | [] => fun _ => 0
  | [v] => v
  | [v, w] => min v w
  | vs => minRange vs

/-- `vector::max(initializer_list)`: `vector.h` 2470-2480. -/
def maxInit {n : ℕ} [Zero K] : List (Fin n → K) → (Fin n → K)
  | [] => fun _ => 0
  | [v] => v
  | [v, w] => max v w
  | vs => maxRange vs

/-- `vector::clamp`: `vector.h` 2489-2502. -/
def clamp {n : ℕ} (v low high : Fin n → K) : Fin n → K := fun i => sclamp (v i) (low i) (high i)

end order

section ordered
variable [CommRing K] [LinearOrder K]

/-- `orthogonal`: `vector.h` 1391-1400. -/
def orthogonal (v : Fin 3 → K) : Fin 3 → K :=
  let x := |v 0|
  let y := |v 1|
  let z := |v 2|
  cross v (if x < y then (if x < z then axis 0 else axis 2) else (if y < z then axis 1 else axis 2))

/-- The loop of `normalized` for a signed integral scalar type: `vector.h` 2151-2159.  `fuel` counts the dimensions
left; the loop runs while `sum > 1`, starting from `sum = 0`. -/
def normalizedLoop : List ℤ → ℤ → ℤ
  | [], sum => sum
  | c :: cs, sum => if sum > 1 then normalizedLoop cs (sum + |c|) else sum

/-- `normalized` for an integral scalar type: `vector.h` 2146-2162.  The scalars are mathematical integers: overflow of
the sum is not modelled (the loop never adds anything, so it cannot occur). -/
def normalizedInt : {n : ℕ} → (Fin n → ℤ) → Bool
  | 1, v => v 0 == 1
  | _, v => normalizedLoop (List.ofFn v) 0 == 1

/-- `normalized` for a floating-point scalar type: `vector.h` 2164-2182, `approx_equal` being `|b - a| < epsilon`
(`math.h` 451-477); `epsilon` is `1/100`, `1/1000000` or `1/10000000000` according to the precision. -/
def normalizedFloat {n : ℕ} (epsilon : K) (v : Fin n → K) : Bool := decide (|1 - lengthSquared v| < epsilon)

end ordered

noncomputable section real

/-- `length`: `vector.h` 1099-1114; the one-dimensional case returns the component itself (1103-1106). -/
def length : {n : ℕ} → (Fin n → ℝ) → ℝ
  | 1, v => v 0
  | _, v => Real.sqrt (lengthSquared v)

/-- `distance`: `vector.h` 1169-1182. -/
def distance {n : ℕ} (p q : Fin n → ℝ) : ℝ := Real.sqrt (distanceSquared p q)

/-- `normalize`: `vector.h` 2033-2049; the one-dimensional case returns `{ 1 }` whatever the argument (2037-2041). -/
def normalizeV : {n : ℕ} → (Fin n → ℝ) → (Fin n → ℝ)
  | 1, _ => fun _ => 1
  | _, v => fun i => v i * (1 / length v)

/-- `normalize(v, length_out)`: `vector.h` 2002-2025; the second component is `length_out`. -/
def normalizeOut : {n : ℕ} → (Fin n → ℝ) → (Fin n → ℝ) × ℝ
  | 1, v => (fun _ => 1, v 0)
  | _, v => (fun i => v i * (1 / length v), length v)

/-- `normalize_lensq`: `vector.h` 2114-2127. -/
def normalizeLensq {n : ℕ} (v : Fin n → ℝ) (lensq : ℝ) : Fin n → ℝ := fun i => v i * (1 / Real.sqrt lensq)

/-- `direction(from, to)` (two and three dimensions): `vector.h` 2238-2250. -/
def direction {n : ℕ} (p q : Fin n → ℝ) : Fin n → ℝ := normalizeV (fun i => q i - p i)

/-- `angle` (two and three dimensions): `vector.h` 2716-2740. -/
def angle {n : ℕ} (v w : Fin n → ℝ) : ℝ :=
  let divisor := length v * length w
  if divisor = 0 then 0 else Real.arccos (sclamp (dot v w / divisor) (-1) 1)

end real

end Verif.Model.Vector
