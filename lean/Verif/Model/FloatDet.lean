import Verif.Model.FloatProducts
import Mathlib.Data.Fin.VecNotation
/-!
# Determinants and inverses of matrices of floating-point numbers

`/repo/include/muu/matrix.h` for `float` and `double` (and any type that is an IEEE 754 format and not promoted), each operation rounded once, to
nearest. As in `FloatProducts`, which products are contracted with additions is a parameter; each expression chooses on its own, also where the
code has the same one twice.
-/
namespace Verif.Model.FloatDet
open Verif.Spec.IeeeArith Verif.Spec.FloatFormat Verif.Model.VectorStore Verif.Model.MatrixStore Verif.Model.FloatVector Verif.Model.FloatProducts

/-- MAT_GET, matrix.h:1024 and 2780: `get<r>()` of the column. Where there is no such entry the program is ill-formed; NaN here, which no theorem admits. -/
def entry {R C : ℕ} (m : Mat Number R C) (r c : ℕ) : Number := (get m r c).getD .nan

/-- `a * x - b * y + c * z`, matrix.h:1051-1053, 2832-2835, 2837-2858. -/
def expand3 (f : Format) (k : Bool × Bool × Bool) (p q r : Number × Number) : Number :=
  Op.add.eval f (Op.sub.eval f (product f p k.1) (product f q k.2.1)) (product f r k.2.2)

/-- `a * x - b * y + c * z - d * w`, matrix.h:1072-1075, 2832-2835. -/
def expand4 (f : Format) (k : Bool × Bool × Bool × Bool) (p q r s : Number × Number) : Number :=
  Op.sub.eval f (Op.add.eval f (Op.sub.eval f (product f p k.1) (product f q k.2.1)) (product f r k.2.2.1)) (product f s k.2.2.2)

/-- raw_determinant_2x2, matrix.h:1026-1035. -/
def det2 (f : Format) (k : Bool × Bool) {R C : ℕ} (m : Mat Number R C) (r0 r1 c0 c1 : ℕ) : Number :=
  difference f k (entry m r0 c0, entry m r1 c1) (entry m r0 c1, entry m r1 c0)

/-- The contractions in a determinant of three rows. -/
structure Three where
  sum : Bool × Bool × Bool
  minors : Fin 3 → Bool × Bool

/-- raw_determinant_3x3, matrix.h:1037-1054. -/
def det3 (f : Format) (k : Three) {R C : ℕ} (m : Mat Number R C) (r0 r1 r2 c0 c1 c2 : ℕ) : Number :=
  expand3 f k.sum (entry m r0 c0, det2 f (k.minors 0) m r1 r2 c1 c2) (entry m r0 c1, det2 f (k.minors 1) m r1 r2 c0 c2)
    (entry m r0 c2, det2 f (k.minors 2) m r1 r2 c0 c1)

/-- The contractions in a determinant of four rows. -/
structure Four where
  sum : Bool × Bool × Bool × Bool
  minors : Fin 4 → Three

/-- raw_determinant_4x4, matrix.h:1056-1076. -/
def det4 (f : Format) (k : Four) {R C : ℕ} (m : Mat Number R C) (r0 r1 r2 r3 c0 c1 c2 c3 : ℕ) : Number :=
  expand4 f k.sum (entry m r0 c0, det3 f (k.minors 0) m r1 r2 r3 c1 c2 c3) (entry m r0 c1, det3 f (k.minors 1) m r1 r2 r3 c0 c2 c3)
    (entry m r0 c2, det3 f (k.minors 2) m r1 r2 r3 c0 c1 c3) (entry m r0 c3, det3 f (k.minors 3) m r1 r2 r3 c0 c1 c2)

/-- The contractions in a determinant of any size. -/
structure Choices where
  two : Bool × Bool
  three : Three
  four : Four

/-- determinant, matrix.h:2739-2751, and the member function, 2757-2762. `none`: there is none of more than four columns. -/
def determinant (f : Format) (k : Choices) {n : ℕ} (m : Mat Number n n) : Option Number :=
  match n, m with
  | 1, m => some (entry m 0 0)
  | 2, m => some (det2 f k.two m 0 1 0 1)
  | 3, m => some (det3 f k.three m 0 1 2 0 1 2)
  | 4, m => some (det4 f k.four m 0 1 2 3 0 1 2 3)
  | _, _ => none

/-- `det * x`, where `det` is `scalar_type{ 1 } / x` (`FloatVector.reciprocal`), matrix.h:2784, 2788, 2794, 2830-2835. -/
def times (f : Format) (d x : Number) : Number := Op.mul.eval f d x

/-- invert of one column, matrix.h:2782-2785. -/
def invert1 (f : Format) (m : Mat Number 1 1) : Mat Number 1 1 := ![.one (reciprocal f (entry m 0 0))]

/-- invert of two columns, matrix.h:2786-2791. -/
def invert2 (f : Format) (k : Bool × Bool) (m : Mat Number 2 2) : Mat Number 2 2 :=
  let det := reciprocal f (det2 f k m 0 1 0 1)
  ![.two (times f det (entry m 1 1)) (times f det (entry m 1 0).negate), .two (times f det (entry m 0 1).negate) (times f det (entry m 0 0))]

/-- invert of three columns, matrix.h:2792-2806. `c r c`: the contractions of the entry. -/
def invert3 (f : Format) (k : Three) (c : Fin 3 → Fin 3 → Bool × Bool) (m : Mat Number 3 3) : Mat Number 3 3 :=
  let det := reciprocal f (det3 f k m 0 1 2 0 1 2)
  ![.three (times f det (difference f (c 0 0) (entry m 1 1, entry m 2 2) (entry m 1 2, entry m 2 1)))
      (times f det (difference f (c 1 0) (entry m 1 0, entry m 2 2) (entry m 1 2, entry m 2 0)).negate)
      (times f det (difference f (c 2 0) (entry m 1 0, entry m 2 1) (entry m 1 1, entry m 2 0))),
    .three (times f det (difference f (c 0 1) (entry m 0 1, entry m 2 2) (entry m 0 2, entry m 2 1)).negate)
      (times f det (difference f (c 1 1) (entry m 0 0, entry m 2 2) (entry m 0 2, entry m 2 0)))
      (times f det (difference f (c 2 1) (entry m 0 0, entry m 2 1) (entry m 0 1, entry m 2 0)).negate),
    .three (times f det (difference f (c 0 2) (entry m 0 1, entry m 1 2) (entry m 0 2, entry m 1 1)))
      (times f det (difference f (c 1 2) (entry m 0 0, entry m 1 2) (entry m 0 2, entry m 1 0)).negate)
      (times f det (difference f (c 2 2) (entry m 0 0, entry m 1 1) (entry m 0 1, entry m 1 0)))]

/-- The contractions in an inverse of four columns: of the eighteen minors, of the sum that is the determinant and of its four minors, and of the
entries. -/
structure Inverse4 where
  minor : Fin 18 → Bool × Bool
  sum : Bool × Bool × Bool × Bool
  inner : Fin 4 → Bool × Bool × Bool
  entry : Fin 4 → Fin 4 → Bool × Bool × Bool

/-- invert of four columns, matrix.h:2807-2858. -/
def invert4 (f : Format) (k : Inverse4) (m : Mat Number 4 4) : Mat Number 4 4 :=
  let e := entry m
  let a2323 := difference f (k.minor 0) (e 2 2, e 3 3) (e 2 3, e 3 2)
  let a1323 := difference f (k.minor 1) (e 2 1, e 3 3) (e 2 3, e 3 1)
  let a1223 := difference f (k.minor 2) (e 2 1, e 3 2) (e 2 2, e 3 1)
  let a0323 := difference f (k.minor 3) (e 2 0, e 3 3) (e 2 3, e 3 0)
  let a0223 := difference f (k.minor 4) (e 2 0, e 3 2) (e 2 2, e 3 0)
  let a0123 := difference f (k.minor 5) (e 2 0, e 3 1) (e 2 1, e 3 0)
  let a2313 := difference f (k.minor 6) (e 1 2, e 3 3) (e 1 3, e 3 2)
  let a1313 := difference f (k.minor 7) (e 1 1, e 3 3) (e 1 3, e 3 1)
  let a1213 := difference f (k.minor 8) (e 1 1, e 3 2) (e 1 2, e 3 1)
  let a2312 := difference f (k.minor 9) (e 1 2, e 2 3) (e 1 3, e 2 2)
  let a1312 := difference f (k.minor 10) (e 1 1, e 2 3) (e 1 3, e 2 1)
  let a1212 := difference f (k.minor 11) (e 1 1, e 2 2) (e 1 2, e 2 1)
  let a0313 := difference f (k.minor 12) (e 1 0, e 3 3) (e 1 3, e 3 0)
  let a0213 := difference f (k.minor 13) (e 1 0, e 3 2) (e 1 2, e 3 0)
  let a0312 := difference f (k.minor 14) (e 1 0, e 2 3) (e 1 3, e 2 0)
  let a0212 := difference f (k.minor 15) (e 1 0, e 2 2) (e 1 2, e 2 0)
  let a0113 := difference f (k.minor 16) (e 1 0, e 3 1) (e 1 1, e 3 0)
  let a0112 := difference f (k.minor 17) (e 1 0, e 2 1) (e 1 1, e 2 0)
  let det := reciprocal f (expand4 f k.sum
    (e 0 0, expand3 f (k.inner 0) (e 1 1, a2323) (e 1 2, a1323) (e 1 3, a1223))
    (e 0 1, expand3 f (k.inner 1) (e 1 0, a2323) (e 1 2, a0323) (e 1 3, a0223))
    (e 0 2, expand3 f (k.inner 2) (e 1 0, a1323) (e 1 1, a0323) (e 1 3, a0123))
    (e 0 3, expand3 f (k.inner 3) (e 1 0, a1223) (e 1 1, a0223) (e 1 2, a0123)))
  ![.four (times f det (expand3 f (k.entry 0 0) (e 1 1, a2323) (e 1 2, a1323) (e 1 3, a1223)))
      (times f det (expand3 f (k.entry 1 0) (e 1 0, a2323) (e 1 2, a0323) (e 1 3, a0223)).negate)
      (times f det (expand3 f (k.entry 2 0) (e 1 0, a1323) (e 1 1, a0323) (e 1 3, a0123)))
      (times f det (expand3 f (k.entry 3 0) (e 1 0, a1223) (e 1 1, a0223) (e 1 2, a0123)).negate),
    .four (times f det (expand3 f (k.entry 0 1) (e 0 1, a2323) (e 0 2, a1323) (e 0 3, a1223)).negate)
      (times f det (expand3 f (k.entry 1 1) (e 0 0, a2323) (e 0 2, a0323) (e 0 3, a0223)))
      (times f det (expand3 f (k.entry 2 1) (e 0 0, a1323) (e 0 1, a0323) (e 0 3, a0123)).negate)
      (times f det (expand3 f (k.entry 3 1) (e 0 0, a1223) (e 0 1, a0223) (e 0 2, a0123))),
    .four (times f det (expand3 f (k.entry 0 2) (e 0 1, a2313) (e 0 2, a1313) (e 0 3, a1213)))
      (times f det (expand3 f (k.entry 1 2) (e 0 0, a2313) (e 0 2, a0313) (e 0 3, a0213)).negate)
      (times f det (expand3 f (k.entry 2 2) (e 0 0, a1313) (e 0 1, a0313) (e 0 3, a0113)))
      (times f det (expand3 f (k.entry 3 2) (e 0 0, a1213) (e 0 1, a0213) (e 0 2, a0113)).negate),
    .four (times f det (expand3 f (k.entry 0 3) (e 0 1, a2312) (e 0 2, a1312) (e 0 3, a1212)).negate)
      (times f det (expand3 f (k.entry 1 3) (e 0 0, a2312) (e 0 2, a0312) (e 0 3, a0212)))
      (times f det (expand3 f (k.entry 2 3) (e 0 0, a1312) (e 0 1, a0312) (e 0 3, a0112)).negate)
      (times f det (expand3 f (k.entry 3 3) (e 0 0, a1212) (e 0 1, a0212) (e 0 2, a0112)))]

/-- The contractions in an inverse of any size. -/
structure InverseChoices where
  two : Bool × Bool
  three : Three
  entry3 : Fin 3 → Fin 3 → Bool × Bool
  four : Inverse4

/-- invert, matrix.h:2770-2863, and in place, 2869-2873. `none`: there is none of more than four columns. -/
def invert (f : Format) (k : InverseChoices) {n : ℕ} (m : Mat Number n n) : Option (Mat Number n n) :=
  match n, m with
  | 1, m => some (invert1 f m)
  | 2, m => some (invert2 f k.two m)
  | 3, m => some (invert3 f k.three k.entry3 m)
  | 4, m => some (invert4 f k.four m)
  | _, _ => none

end Verif.Model.FloatDet
