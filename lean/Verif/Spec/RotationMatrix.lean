import Verif.Spec.Quaternions
import Mathlib.LinearAlgebra.Matrix.Defs
/-!
# The matrix of a rotation
-/
namespace Verif.Spec.RotationMatrix
open Quaternion Verif.Spec.Quaternions

/-- The matrix of what a quaternion does to vectors: its columns are what it does to the three axes. -/
def rotation (p : ℍ[ℚ]) : Matrix (Fin 3) (Fin 3) ℚ := fun r c => turned p (Pi.single c 1) r

/-- Its entries, with the magnitude of each of the products that make them. -/
def rotationMagnitudes (p : ℍ[ℚ]) : Matrix (Fin 3) (Fin 3) ℚ := fun r c => turnedMagnitudes p (Pi.single c 1) r

/-- The square of the length of a quaternion. -/
def squaredLength (p : ℍ[ℚ]) : ℚ := p.re ^ 2 + p.imI ^ 2 + p.imJ ^ 2 + p.imK ^ 2

/-- The components of two quaternions differ by at most `e`. -/
def Within (e : ℚ) (p q : ℍ[ℚ]) : Prop := |p.re - q.re| ≤ e ∧ |p.imI - q.imI| ≤ e ∧ |p.imJ - q.imJ| ≤ e ∧ |p.imK - q.imK| ≤ e

end Verif.Spec.RotationMatrix
