import Verif.Model.FloatQuat
/-!
# Rotation matrices of floating-point numbers, from and to quaternions

`/repo/include/muu/matrix.h` and `/repo/include/muu/impl/quaternion_x_matrix.h` for `float` and `double` (and any type that is an IEEE 754
format and not promoted), each operation rounded once, to nearest. As in `FloatVector` and `FloatProducts`, which products are contracted with
additions is a parameter.
-/
namespace Verif.Model.FloatRotation
open Verif.Spec.IeeeArith Verif.Spec.FloatFormat Verif.Spec.FloatSqrt Verif.Model.VectorStore Verif.Model.MatrixStore Verif.Model.FloatVector
open Verif.Model.FloatProducts Verif.Model.FloatQuat

/-- The contractions of a conversion to a matrix: in the entry of each row and column, of the two products of components with their sum or
difference; and of twice the sum of two squares with its subtraction from one. -/
structure Choices where
  sum : Fin 3 → Fin 3 → Bool × Bool
  one : Fin 3 → Bool

/-- The matrix has three rows and three or four columns, or four of both: is_3d_rotation_matrix_, impl/matrix_base.h:271-277. -/
def Shape (R C : ℕ) : Prop := R = 3 ∧ C = 3 ∨ R = 3 ∧ C = 4 ∨ R = 4 ∧ C = 4

/-- from_quaternion, matrix.h:509-549. The products are written where they are used: the compiler may contract them or not for each use. `none`: not the shape of a
rotation. -/
def fromQuaternion (f : Format) (k : Choices) (R C : ℕ) (quat : Quaternion) : Option (Mat Number R C) :=
  match quat.v with
  | .three x y z => do
    let s := quat.s
    let two : Number := .fin false 2
    let diagonal := fun (i : Fin 3) (a b : Number) =>
      Op.sub.eval f (.fin false 1) (product f (two, combination f (k.sum i i) (a, a) (b, b)) (k.one i))
    let plus := fun (r c : Fin 3) (p q : Number × Number) => Op.mul.eval f two (combination f (k.sum r c) p q)
    let minus := fun (r c : Fin 3) (p q : Number × Number) => Op.mul.eval f two (difference f (k.sum r c) p q)
    let col0 ← init (.fin false 0) R [diagonal 0 y z, plus 1 0 (x, y) (s, z), minus 2 0 (x, z) (s, y)]
    let col1 ← init (.fin false 0) R [minus 0 1 (x, y) (s, z), diagonal 1 x z, plus 2 1 (s, x) (y, z)]
    let col2 ← init (.fin false 0) R [plus 0 2 (s, y) (x, z), minus 1 2 (y, z) (s, x), diagonal 2 x y]
    let out ← initColumns (.fin false 0) R C [col0, col1, col2]
    if R = 4 ∧ C = 4 then set out 3 3 (.fin false 1) else some out

/-- quat_from_rotation_matrix, impl/quaternion_x_matrix.h:17-75, and from_rotation, 79-107. No product is an operand of an addition. `none`: a static_assert fails. -/
def fromRotation (f : Format) {R C : ℕ} (rot : Mat Number R C) : Option Quaternion := do
  let m00 ← get rot 0 0
  let m01 ← get rot 0 1
  let m02 ← get rot 0 2
  let m10 ← get rot 1 0
  let m11 ← get rot 1 1
  let m12 ← get rot 1 2
  let m20 ← get rot 2 0
  let m21 ← get rot 2 1
  let m22 ← get rot 2 2
  let add := fun a b => Op.add.eval f a b
  let sub := fun a b => Op.sub.eval f a b
  let mul := fun a b => Op.mul.eval f a b
  let trace := add (add m00 m11) m22
  if Kahan.less (.fin false 0) trace then
    let s := mul (sqrt f (add trace (.fin false 1))) (.fin false 2)
    let inv_s := reciprocal f s
    some ⟨mul (.fin false (1 / 4)) s, .three (mul (sub m21 m12) inv_s) (mul (sub m02 m20) inv_s) (mul (sub m10 m01) inv_s)⟩
  else if Kahan.less m11 m00 && Kahan.less m22 m00 then
    let s := mul (sqrt f (add (sub (sub m00 m11) m22) (.fin false 1))) (.fin false 2)
    let inv_s := reciprocal f s
    some ⟨mul (sub m21 m12) inv_s, .three (mul (.fin false (1 / 4)) s) (mul (add m01 m10) inv_s) (mul (add m02 m20) inv_s)⟩
  else if Kahan.less m22 m11 then
    let s := mul (sqrt f (add (sub (sub m11 m00) m22) (.fin false 1))) (.fin false 2)
    let inv_s := reciprocal f s
    some ⟨mul (sub m02 m20) inv_s, .three (mul (add m01 m10) inv_s) (mul (.fin false (1 / 4)) s) (mul (add m21 m12) inv_s)⟩
  else
    let s := mul (sqrt f (add (sub (sub m22 m00) m11) (.fin false 1))) (.fin false 2)
    let inv_s := reciprocal f s
    some ⟨mul (sub m10 m01) inv_s, .three (mul (add m02 m20) inv_s) (mul (add m21 m12) inv_s) (mul (.fin false (1 / 4)) s)⟩

end Verif.Model.FloatRotation
