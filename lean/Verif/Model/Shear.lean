import Verif.Model.Transform
/-!
# Shear of rotation matrices (`include/muu/matrix.h` 417-430, 603-619)

Exact arithmetic. A vector without length has no direction: `normalize` divides by zero, its components are not numbers, no more is a
dot product with them, and `approx_equal` of that with anything is false.
-/
namespace Verif.Model.Shear

open Verif.Model.Matrix Verif.Model.Vector Verif.Model.Transform

noncomputable section

/-- `vector::normalize`: `vector.h` 2033-2049; `none`: components that are not numbers. -/
def direction {n : ℕ} (v : Fin n → ℝ) : Option (Fin n → ℝ) := if length v = 0 then none else some (normalizeV v)

/-- `approx_equal(dot(x, y), Scalar{}, eps)`: `math.h` 450-477, with `eps` one over one thousand (`matrix.h` 427, 613). -/
def approxOrthogonal {n : ℕ} : Option (Fin n → ℝ) → Option (Fin n → ℝ) → Bool
  | some x, some y => decide (|0 - dot x y| < 1 / 1000)
  | _, _ => false

/-- The first two components of a column, `vector<Scalar, 2>{ m.x_column() }`: `matrix.h` 423-424. -/
def column2 {R C : ℕ} (hR : 2 ≤ R) (m : Mat ℝ R C) (j : Fin C) : Fin 2 → ℝ := fun i => m (Fin.castLE hR i) j

/-- `has_2d_shear`: `matrix.h` 417-430. -/
def has2dShear {R C : ℕ} (hR : 2 ≤ R) (hC : 2 ≤ C) (m : Mat ℝ R C) : Bool :=
  let x := direction (column2 hR m (Fin.castLE hC 0))
  let y := direction (column2 hR m (Fin.castLE hC 1))
  !approxOrthogonal x y

/-- `has_3d_shear`: `matrix.h` 603-619. -/
def has3dShear {R C : ℕ} (hR : 3 ≤ R) (hC : 3 ≤ C) (m : Mat ℝ R C) : Bool :=
  let x := direction (column3 hR m (Fin.castLE hC 0))
  let y := direction (column3 hR m (Fin.castLE hC 1))
  let z := direction (column3 hR m (Fin.castLE hC 2))
  !approxOrthogonal x y || !approxOrthogonal x z || !approxOrthogonal y z

end

end Verif.Model.Shear
