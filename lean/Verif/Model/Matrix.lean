import Mathlib.Data.Fin.VecNotation
import Mathlib.Algebra.Field.Defs

/-!
# Model of `muu::matrix` (`include/muu/matrix.h`, `include/muu/impl/matrix_base.h`)

A matrix of `R` rows and `C` columns is the function `get<r, c>()` of its scalars, `Mat K R C`.  The storage
(an array of columns, `matrix_base.h` 25-28) is visible only through `ofCols`, the column-wise constructor.

Simplifications, all of them stated here once:
* the scalar type is an arbitrary commutative ring or field `K` and its arithmetic is exact: rounding, overflow
  and the promotions to wider types (`product_requires_promotion`, `inverse_requires_promotion`,
  `is_small_float`) are not modelled;
* `MUU_FMA_BLOCK` (permission to contract `a*b+c`) has no effect on exact arithmetic.
-/

namespace Verif.Model.Matrix

variable {K : Type*}

/-- The scalars of `matrix<K, R, C>` by row and column: `matrix.h` 2024-2100 (`get<R, C>()`, `operator()(r, c)`). -/
abbrev Mat (K : Type*) (R C : ℕ) := Fin R → Fin C → K

/-- The column-wise constructor: `matrix.h` 1560-1600, `matrix_base.h` 62-67 (`columnwise_init_tag`). -/
def ofCols {R C : ℕ} (cols : Fin C → Fin R → K) : Mat K R C := fun r c => cols c r

section ring
variable [CommRing K]

/-- The row-major scalar constructor: `matrix_base.h` 79-122, `get_tuple_value_or_zero<Column + Columns * Row>`;
absent trailing values are zero.  (The five "common" sizes are spelled out separately at 124-187 and are modelled
by `ofScalars22` … `ofScalars44`.) -/
def ofScalars {R C : ℕ} (vals : List K) : Mat K R C :=
  ofCols fun c r => (vals[c.1 + C * r.1]?).getD 0

/-- `matrix_base.h` 127-130: the 2x2 row-major constructor. -/
def ofScalars22 (v00 v01 v10 v11 : K) : Mat K 2 2 := ofCols ![![v00, v10], ![v01, v11]]

/-- `matrix_base.h` 133-141: the 2x3 row-major constructor. -/
def ofScalars23 (v00 v01 v02 v10 v11 v12 : K) : Mat K 2 3 := ofCols ![![v00, v10], ![v01, v11], ![v02, v12]]

/-- `matrix_base.h` 144-155: the 3x3 row-major constructor. -/
def ofScalars33 (v00 v01 v02 v10 v11 v12 v20 v21 v22 : K) : Mat K 3 3 :=
  ofCols ![![v00, v10, v20], ![v01, v11, v21], ![v02, v12, v22]]

/-- `matrix_base.h` 158-172: the 3x4 row-major constructor. -/
def ofScalars34 (v00 v01 v02 v03 v10 v11 v12 v13 v20 v21 v22 v23 : K) : Mat K 3 4 :=
  ofCols ![![v00, v10, v20], ![v01, v11, v21], ![v02, v12, v22], ![v03, v13, v23]]

/-- `matrix_base.h` 175-194: the 4x4 row-major constructor. -/
def ofScalars44 (v00 v01 v02 v03 v10 v11 v12 v13 v20 v21 v22 v23 v30 v31 v32 v33 : K) : Mat K 4 4 :=
  ofCols ![![v00, v10, v20, v30], ![v01, v11, v21, v31], ![v02, v12, v22, v32], ![v03, v13, v23, v33]]

/-- `constants<matrix>::identity`: `matrix.h` 3116-3138 (`make_identity_matrix`): zero everywhere, then ones at
`(0,0)`, `(1,1)`, `(2,2)`, `(3,3)` where they exist and, when both sizes exceed 4, at `(i, i)` for
`4 ≤ i < min(Rows, Columns)`. -/
def identity (R C : ℕ) : Mat K R C := fun r c =>
  if r.1 = c.1 then
    if r.1 = 0 then 1
    else if r.1 = 1 then (if R > 1 ∧ C > 1 then 1 else 0)
    else if r.1 = 2 then (if R > 2 ∧ C > 2 then 1 else 0)
    else if r.1 = 3 then (if R > 3 ∧ C > 3 then 1 else 0)
    else (if (R > 4 ∧ C > 4) ∧ 4 ≤ r.1 ∧ r.1 < min R C then 1 else 0)
  else 0

/-- The inner loop shared by the three general products: `val = f(0) * g(0)`, then `val += f(i) * g(i)` for
`i = 1 .. n-1`; e.g. `matrix.h` 2466-2468. -/
def dotLoop {n : ℕ} (f g : Fin (n + 1) → K) : K :=
  (List.finRange n).foldl (fun val i => val + f i.succ * g i.succ) (f 0 * g 0)

/-- Matrix times matrix, general loop: `matrix.h` 2459-2474. -/
def mulLoop {R N C : ℕ} (lhs : Mat K R (N + 1)) (rhs : Mat K (N + 1) C) : Mat K R C :=
  fun r c => dotLoop (fun i => lhs r i) (fun i => rhs i c)

/-- Matrix times matrix: `matrix.h` 2398-2479.  The `2x2`, `3x3` and `4x4` cases are the unrolled expressions of
2414-2458 (`MULT_DOT(row, col, idx) = lhs(row, idx) * rhs(idx, col)`). A matrix has at least one column
(`static_assert` at 1306); the `0` case is unreachable. -/
def mul : {R N C : ℕ} → Mat K R N → Mat K N C → Mat K R C
  | 2, 2, 2, l, r => ofCols
      ![![l 0 0 * r 0 0 + l 0 1 * r 1 0, l 1 0 * r 0 0 + l 1 1 * r 1 0],
        ![l 0 0 * r 0 1 + l 0 1 * r 1 1, l 1 0 * r 0 1 + l 1 1 * r 1 1]]
  | 3, 3, 3, l, r => ofCols
      ![![l 0 0 * r 0 0 + l 0 1 * r 1 0 + l 0 2 * r 2 0,
          l 1 0 * r 0 0 + l 1 1 * r 1 0 + l 1 2 * r 2 0,
          l 2 0 * r 0 0 + l 2 1 * r 1 0 + l 2 2 * r 2 0],
        ![l 0 0 * r 0 1 + l 0 1 * r 1 1 + l 0 2 * r 2 1,
          l 1 0 * r 0 1 + l 1 1 * r 1 1 + l 1 2 * r 2 1,
          l 2 0 * r 0 1 + l 2 1 * r 1 1 + l 2 2 * r 2 1],
        ![l 0 0 * r 0 2 + l 0 1 * r 1 2 + l 0 2 * r 2 2,
          l 1 0 * r 0 2 + l 1 1 * r 1 2 + l 1 2 * r 2 2,
          l 2 0 * r 0 2 + l 2 1 * r 1 2 + l 2 2 * r 2 2]]
  | 4, 4, 4, l, r => ofCols
      ![![l 0 0 * r 0 0 + l 0 1 * r 1 0 + l 0 2 * r 2 0 + l 0 3 * r 3 0,
          l 1 0 * r 0 0 + l 1 1 * r 1 0 + l 1 2 * r 2 0 + l 1 3 * r 3 0,
          l 2 0 * r 0 0 + l 2 1 * r 1 0 + l 2 2 * r 2 0 + l 2 3 * r 3 0,
          l 3 0 * r 0 0 + l 3 1 * r 1 0 + l 3 2 * r 2 0 + l 3 3 * r 3 0],
        ![l 0 0 * r 0 1 + l 0 1 * r 1 1 + l 0 2 * r 2 1 + l 0 3 * r 3 1,
          l 1 0 * r 0 1 + l 1 1 * r 1 1 + l 1 2 * r 2 1 + l 1 3 * r 3 1,
          l 2 0 * r 0 1 + l 2 1 * r 1 1 + l 2 2 * r 2 1 + l 2 3 * r 3 1,
          l 3 0 * r 0 1 + l 3 1 * r 1 1 + l 3 2 * r 2 1 + l 3 3 * r 3 1],
        ![l 0 0 * r 0 2 + l 0 1 * r 1 2 + l 0 2 * r 2 2 + l 0 3 * r 3 2,
          l 1 0 * r 0 2 + l 1 1 * r 1 2 + l 1 2 * r 2 2 + l 1 3 * r 3 2,
          l 2 0 * r 0 2 + l 2 1 * r 1 2 + l 2 2 * r 2 2 + l 2 3 * r 3 2,
          l 3 0 * r 0 2 + l 3 1 * r 1 2 + l 3 2 * r 2 2 + l 3 3 * r 3 2],
        ![l 0 0 * r 0 3 + l 0 1 * r 1 3 + l 0 2 * r 2 3 + l 0 3 * r 3 3,
          l 1 0 * r 0 3 + l 1 1 * r 1 3 + l 1 2 * r 2 3 + l 1 3 * r 3 3,
          l 2 0 * r 0 3 + l 2 1 * r 1 3 + l 2 2 * r 2 3 + l 2 3 * r 3 3,
          l 3 0 * r 0 3 + l 3 1 * r 1 3 + l 3 2 * r 2 3 + l 3 3 * r 3 3]]
  | _, _ + 1, _, l, r => mulLoop l r
  | _, 0, _, _, _ => fun _ _ => 0

/-- Matrix times column vector: `matrix.h` 2495-2543, unrolled for `2x2`, `3x3`, `4x4`, a loop otherwise. -/
def mulVec : {R C : ℕ} → Mat K R C → (Fin C → K) → (Fin R → K)
  | 2, 2, l, v => ![l 0 0 * v 0 + l 0 1 * v 1, l 1 0 * v 0 + l 1 1 * v 1]
  | 3, 3, l, v => ![l 0 0 * v 0 + l 0 1 * v 1 + l 0 2 * v 2,
                    l 1 0 * v 0 + l 1 1 * v 1 + l 1 2 * v 2,
                    l 2 0 * v 0 + l 2 1 * v 1 + l 2 2 * v 2]
  | 4, 4, l, v => ![l 0 0 * v 0 + l 0 1 * v 1 + l 0 2 * v 2 + l 0 3 * v 3,
                    l 1 0 * v 0 + l 1 1 * v 1 + l 1 2 * v 2 + l 1 3 * v 3,
                    l 2 0 * v 0 + l 2 1 * v 1 + l 2 2 * v 2 + l 2 3 * v 3,
                    l 3 0 * v 0 + l 3 1 * v 1 + l 3 2 * v 2 + l 3 3 * v 3]
  | _, _ + 1, l, v => fun r => dotLoop (fun i => l r i) v
  | _, 0, _, _ => fun _ => 0

/-- Row vector times matrix: `matrix.h` 2551-2599. -/
def vecMul : {R C : ℕ} → (Fin R → K) → Mat K R C → (Fin C → K)
  | 2, 2, v, m => ![v 0 * m 0 0 + v 1 * m 1 0, v 0 * m 0 1 + v 1 * m 1 1]
  | 3, 3, v, m => ![v 0 * m 0 0 + v 1 * m 1 0 + v 2 * m 2 0,
                    v 0 * m 0 1 + v 1 * m 1 1 + v 2 * m 2 1,
                    v 0 * m 0 2 + v 1 * m 1 2 + v 2 * m 2 2]
  | 4, 4, v, m => ![v 0 * m 0 0 + v 1 * m 1 0 + v 2 * m 2 0 + v 3 * m 3 0,
                    v 0 * m 0 1 + v 1 * m 1 1 + v 2 * m 2 1 + v 3 * m 3 1,
                    v 0 * m 0 2 + v 1 * m 1 2 + v 2 * m 2 2 + v 3 * m 3 2,
                    v 0 * m 0 3 + v 1 * m 1 3 + v 2 * m 2 3 + v 3 * m 3 3]
  | _ + 1, _, v, m => fun c => dotLoop v (fun i => m i c)
  | 0, _, _, _ => fun _ => 0

/-- `transpose`: `matrix.h` 2669-2716, unrolled for `2x2`, `3x3`, `4x4`; otherwise `out.m[r][c] = m.m[c][r]`, where
`out.m[r]` is a column of the result. -/
def transpose : {R C : ℕ} → Mat K R C → Mat K C R
  | 2, 2, m => ofCols ![![m 0 0, m 0 1], ![m 1 0, m 1 1]]
  | 3, 3, m => ofCols ![![m 0 0, m 0 1, m 0 2], ![m 1 0, m 1 1, m 1 2], ![m 2 0, m 2 1, m 2 2]]
  | 4, 4, m => ofCols ![![m 0 0, m 0 1, m 0 2, m 0 3], ![m 1 0, m 1 1, m 1 2, m 1 3],
                        ![m 2 0, m 2 1, m 2 2, m 2 3], ![m 3 0, m 3 1, m 3 2, m 3 3]]
  | _, _, m => ofCols fun r c => m r c

/-- `raw_determinant_2x2<Row0, Row1, Col0, Col1>`: `matrix.h` 1026-1034. -/
def rawDet2 {R C : ℕ} (r0 r1 : Fin R) (c0 c1 : Fin C) (m : Mat K R C) : K :=
  m r0 c0 * m r1 c1 - m r0 c1 * m r1 c0

/-- `raw_determinant_3x3`: `matrix.h` 1036-1055. -/
def rawDet3 {R C : ℕ} (r0 r1 r2 : Fin R) (c0 c1 c2 : Fin C) (m : Mat K R C) : K :=
  m r0 c0 * rawDet2 r1 r2 c1 c2 m - m r0 c1 * rawDet2 r1 r2 c0 c2 m + m r0 c2 * rawDet2 r1 r2 c0 c1 m

/-- `raw_determinant_4x4`: `matrix.h` 1056-1076. -/
def rawDet4 {R C : ℕ} (r0 r1 r2 r3 : Fin R) (c0 c1 c2 c3 : Fin C) (m : Mat K R C) : K :=
  m r0 c0 * rawDet3 r1 r2 r3 c1 c2 c3 m - m r0 c1 * rawDet3 r1 r2 r3 c0 c2 c3 m
    + m r0 c2 * rawDet3 r1 r2 r3 c0 c1 c3 m - m r0 c3 * rawDet3 r1 r2 r3 c0 c1 c2 m

/-- `determinant` (square, at most `4x4`): `matrix.h` 2739-2751.  Larger sizes are rejected at compile time:
`none`. -/
def determinant : {n : ℕ} → Mat K n n → Option K
  | 1, m => some (m 0 0)
  | 2, m => some (rawDet2 0 1 0 1 m)
  | 3, m => some (rawDet3 0 1 2 0 1 2 m)
  | 4, m => some (rawDet4 0 1 2 3 0 1 2 3 m)
  | _, _ => none

end ring

section field
variable [Field K]

/-- `invert` for `1x1`: `matrix.h` 2782-2785. -/
def invert1 (m : Mat K 1 1) : Mat K 1 1 := ofCols ![![1 / m 0 0]]

/-- `invert` for `2x2`: `matrix.h` 2786-2791. -/
def invert2 (m : Mat K 2 2) : Mat K 2 2 :=
  let det := 1 / rawDet2 0 1 0 1 m
  ofCols ![![det * m 1 1, det * -(m 1 0)], ![det * -(m 0 1), det * m 0 0]]

/-- `invert` for `3x3`: `matrix.h` 2792-2807. -/
def invert3 (m : Mat K 3 3) : Mat K 3 3 :=
  let det := 1 / rawDet3 0 1 2 0 1 2 m
  ofCols
    ![![det * (m 1 1 * m 2 2 - m 1 2 * m 2 1),
        det * -(m 1 0 * m 2 2 - m 1 2 * m 2 0),
        det * (m 1 0 * m 2 1 - m 1 1 * m 2 0)],
      ![det * -(m 0 1 * m 2 2 - m 0 2 * m 2 1),
        det * (m 0 0 * m 2 2 - m 0 2 * m 2 0),
        det * -(m 0 0 * m 2 1 - m 0 1 * m 2 0)],
      ![det * (m 0 1 * m 1 2 - m 0 2 * m 1 1),
        det * -(m 0 0 * m 1 2 - m 0 2 * m 1 0),
        det * (m 0 0 * m 1 1 - m 0 1 * m 1 0)]]

/-- `invert` for `4x4`: `matrix.h` 2808-2859. -/
def invert4 (m : Mat K 4 4) : Mat K 4 4 :=
  let A2323 := m 2 2 * m 3 3 - m 2 3 * m 3 2
  let A1323 := m 2 1 * m 3 3 - m 2 3 * m 3 1
  let A1223 := m 2 1 * m 3 2 - m 2 2 * m 3 1
  let A0323 := m 2 0 * m 3 3 - m 2 3 * m 3 0
  let A0223 := m 2 0 * m 3 2 - m 2 2 * m 3 0
  let A0123 := m 2 0 * m 3 1 - m 2 1 * m 3 0
  let A2313 := m 1 2 * m 3 3 - m 1 3 * m 3 2
  let A1313 := m 1 1 * m 3 3 - m 1 3 * m 3 1
  let A1213 := m 1 1 * m 3 2 - m 1 2 * m 3 1
  let A2312 := m 1 2 * m 2 3 - m 1 3 * m 2 2
  let A1312 := m 1 1 * m 2 3 - m 1 3 * m 2 1
  let A1212 := m 1 1 * m 2 2 - m 1 2 * m 2 1
  let A0313 := m 1 0 * m 3 3 - m 1 3 * m 3 0
  let A0213 := m 1 0 * m 3 2 - m 1 2 * m 3 0
  let A0312 := m 1 0 * m 2 3 - m 1 3 * m 2 0
  let A0212 := m 1 0 * m 2 2 - m 1 2 * m 2 0
  let A0113 := m 1 0 * m 3 1 - m 1 1 * m 3 0
  let A0112 := m 1 0 * m 2 1 - m 1 1 * m 2 0
  let det := 1 / (m 0 0 * (m 1 1 * A2323 - m 1 2 * A1323 + m 1 3 * A1223)
    - m 0 1 * (m 1 0 * A2323 - m 1 2 * A0323 + m 1 3 * A0223)
    + m 0 2 * (m 1 0 * A1323 - m 1 1 * A0323 + m 1 3 * A0123)
    - m 0 3 * (m 1 0 * A1223 - m 1 1 * A0223 + m 1 2 * A0123))
  ofCols
    ![![det * (m 1 1 * A2323 - m 1 2 * A1323 + m 1 3 * A1223),
        det * -(m 1 0 * A2323 - m 1 2 * A0323 + m 1 3 * A0223),
        det * (m 1 0 * A1323 - m 1 1 * A0323 + m 1 3 * A0123),
        det * -(m 1 0 * A1223 - m 1 1 * A0223 + m 1 2 * A0123)],
      ![det * -(m 0 1 * A2323 - m 0 2 * A1323 + m 0 3 * A1223),
        det * (m 0 0 * A2323 - m 0 2 * A0323 + m 0 3 * A0223),
        det * -(m 0 0 * A1323 - m 0 1 * A0323 + m 0 3 * A0123),
        det * (m 0 0 * A1223 - m 0 1 * A0223 + m 0 2 * A0123)],
      ![det * (m 0 1 * A2313 - m 0 2 * A1313 + m 0 3 * A1213),
        det * -(m 0 0 * A2313 - m 0 2 * A0313 + m 0 3 * A0213),
        det * (m 0 0 * A1313 - m 0 1 * A0313 + m 0 3 * A0113),
        det * -(m 0 0 * A1213 - m 0 1 * A0213 + m 0 2 * A0113)],
      ![det * -(m 0 1 * A2312 - m 0 2 * A1312 + m 0 3 * A1212),
        det * (m 0 0 * A2312 - m 0 2 * A0312 + m 0 3 * A0212),
        det * -(m 0 0 * A1312 - m 0 1 * A0312 + m 0 3 * A0112),
        det * (m 0 0 * A1212 - m 0 1 * A0212 + m 0 2 * A0112)]]

/-- `invert` (square, at most `4x4`): `matrix.h` 2768-2863; larger sizes are rejected at compile time.  Division by
a zero determinant is `1 / 0 = 0` here; every theorem about `invert` assumes the determinant is not zero. -/
def invert : {n : ℕ} → Mat K n n → Option (Mat K n n)
  | 1, m => some (invert1 m)
  | 2, m => some (invert2 m)
  | 3, m => some (invert3 m)
  | 4, m => some (invert4 m)
  | _, _ => none

end field

end Verif.Model.Matrix
