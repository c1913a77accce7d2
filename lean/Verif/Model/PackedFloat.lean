import Verif.Model.PackedUnit
import Verif.Model.FloatLength
/-!
# Unpacking of packed unit vectors, with rounding

`/repo/include/muu/packed_unit_vector.h`, `unpack_vector` for `float` and `double`: every operation is rounded, and the result is normalized.
`n` is the size of the integer in bits. `c` is the contraction that the compiler has chosen for the squared length (vector.h has
`MUU_FMA_BLOCK`), and `kx`, `ky` whether it has contracted the products that give x and y with the subtractions that take them.
-/
namespace Verif.Model.PackedFloat
open Verif.Spec.IeeeArith Verif.Spec.FloatFormat Verif.Model.VectorStore Verif.Model.FloatVector Verif.Model.PackedUnit

/-- `static_cast<T>` of an unsigned integer -/
def cast (f : Format) (i : ℕ) : Number := f.round (.fin false i)

/-- line 139 `x_range_div` -/
def rangeDiv (f : Format) (n d : ℕ) : Number := reciprocal f (cast f (xRange n d))

/-- lines 157-159, 165-166: `static_cast<T>(1 - (static_cast<int>(!!(b & sign_bit)) * 2))` -/
def signNumber (n i b : ℕ) : Number := .fin (negative n i b) 1

/-- lines 141-160: three dimensions -/
def unpack3 (f : Format) (n : ℕ) (kx ky : Bool) (c : Store Bool 3) (b : ℕ) : Option (Store Number 3) :=
  let ix := (decode3 n b).1
  let iy := (decode3 n b).2
  let x := Op.mul.eval f (cast f ix) (rangeDiv f n 3)
  let y := Op.mul.eval f (cast f iy) (rangeDiv f n 3)
  let z := Op.sub.eval f (Op.sub.eval f (.fin false 1) (product f (cast f ix, rangeDiv f n 3) kx)) (product f (cast f iy, rangeDiv f n 3) ky)
  FloatLength.normalize f c
    (.three (Op.mul.eval f (signNumber n 0 b) x) (Op.mul.eval f (signNumber n 1 b) y) (Op.mul.eval f (signNumber n 2 b) z))

/-- lines 161-167: two dimensions -/
def unpack2 (f : Format) (n : ℕ) (kx : Bool) (c : Store Bool 2) (b : ℕ) : Option (Store Number 2) :=
  let x := Op.mul.eval f (cast f (b &&& xRange n 2)) (rangeDiv f n 2)
  let y := Op.sub.eval f (.fin false 1) (product f (cast f (b &&& xRange n 2), rangeDiv f n 2) kx)
  FloatLength.normalize f c (.two (Op.mul.eval f (signNumber n 0 b) x) (Op.mul.eval f (signNumber n 1 b) y))

end Verif.Model.PackedFloat
