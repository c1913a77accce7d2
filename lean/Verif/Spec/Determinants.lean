import Verif.Spec.FloatFormat
import Mathlib.LinearAlgebra.Matrix.Adjugate
import Mathlib.LinearAlgebra.Matrix.Permanent
/-!
# How well a determinant and an inverse can be computed by expansion
-/
namespace Verif.Spec.Determinants
open Verif.Spec.FloatFormat

/-- The sum of the magnitudes of the `n!` products of which the determinant is the signed sum. -/
def spread {n : ℕ} (A : Matrix (Fin n) (Fin n) ℚ) : ℚ := (A.map abs).permanent

/-- The same of the minor that is the entry `(i, j)` of the adjugate but for its sign. -/
def minorSpread {n : ℕ} (A : Matrix (Fin (n + 1)) (Fin (n + 1)) ℚ) (i j : Fin (n + 1)) : ℚ := spread (A.submatrix j.succAbove i.succAbove)

/-- How many roundings there are one after the other in the expansion along the first row: `0, 2, 5, 9` for `n = 1, 2, 3, 4`. -/
def steps (n : ℕ) : ℕ := n * (n + 1) / 2 - 1

/-- What underflow contributes, in halves of the least number of the format, if no entry is greater than `B`. -/
def slack (n : ℕ) (B : ℚ) : ℚ := match n with | 2 => 3 | 3 => 14 * B | 4 => 63 * B ^ 2 | _ => 0

/-- The bound of the error of a determinant. -/
def detError (f : Format) {n : ℕ} (B : ℚ) (A : Matrix (Fin n) (Fin n) ℚ) : ℚ :=
  ((1 + f.u) ^ steps n - 1) * spread A + (1 + f.u) ^ steps n * (slack n B * f.tiny)

/-- The bound of the error of the entry `(i, j)` of an inverse, where the determinant has a relative error of at most `θ`. -/
def inverseError (f : Format) {n : ℕ} (B θ : ℚ) (A : Matrix (Fin (n + 1)) (Fin (n + 1)) ℚ) (i j : Fin (n + 1)) : ℚ :=
  let g := (1 + f.u) ^ (steps n + 2) / (1 - θ)
  (g - 1) * (minorSpread A i j / |A.det|)
    + g * (minorSpread A i j * f.tiny + slack n B * f.tiny / |A.det| + slack n B * f.tiny * f.tiny + f.tiny)

end Verif.Spec.Determinants
