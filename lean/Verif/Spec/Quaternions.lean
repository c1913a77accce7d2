import Mathlib.Algebra.Quaternion
import Mathlib.LinearAlgebra.CrossProduct
/-!
# Products of quaternions and rotations, and the magnitudes of their terms
-/
namespace Verif.Spec.Quaternions
open Quaternion

/-- The components of `p * q`, with the magnitude of each of the products that make them. -/
def magnitudes (p q : ℍ[ℚ]) : ℍ[ℚ] :=
  ⟨|p.re * q.re| + |p.imI * q.imI| + |p.imJ * q.imJ| + |p.imK * q.imK|, |p.re * q.imI| + |p.imI * q.re| + |p.imJ * q.imK| + |p.imK * q.imJ|,
    |p.re * q.imJ| + |p.imI * q.imK| + |p.imJ * q.re| + |p.imK * q.imI|, |p.re * q.imK| + |p.imI * q.imJ| + |p.imJ * q.imI| + |p.imK * q.re|⟩

/-- The vector part. -/
def vec (q : ℍ[ℚ]) : Fin 3 → ℚ := ![q.imI, q.imJ, q.imK]

/-- What a quaternion does to a vector: the rotation that it encodes, if its length is one. -/
def turned (q : ℍ[ℚ]) (r : Fin 3 → ℚ) : Fin 3 → ℚ :=
  r + (2 * q.re) • crossProduct (vec q) r + (2 : ℚ) • crossProduct (vec q) (crossProduct (vec q) r)

/-- The components of the cross product, with the magnitude of each of the products that make them. -/
def crossMagnitudes (v w : Fin 3 → ℚ) : Fin 3 → ℚ :=
  ![|v 1| * |w 2| + |v 2| * |w 1|, |v 2| * |w 0| + |v 0| * |w 2|, |v 0| * |w 1| + |v 1| * |w 0|]

/-- The components of `turned q r`, with the magnitude of each of the products that make them. -/
def turnedMagnitudes (q : ℍ[ℚ]) (r : Fin 3 → ℚ) : Fin 3 → ℚ :=
  (fun i => |r i|) + (2 * |q.re|) • crossMagnitudes (vec q) r + (2 : ℚ) • crossMagnitudes (vec q) (crossMagnitudes (vec q) r)

end Verif.Spec.Quaternions
