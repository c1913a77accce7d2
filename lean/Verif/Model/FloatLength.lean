import Verif.Spec.FloatSqrt
import Verif.Model.Kahan
/-!
# Lengths of vectors of floating-point numbers

`/repo/include/muu/vector.h`, for scalar types that are not promoted (`float`, `double`), with each operation rounded. `c` is the contraction that the
compiler has chosen for the squared length.
-/
namespace Verif.Model.FloatLength
open Verif.Spec.Parts Verif.Spec.IeeeArith Verif.Spec.FloatFormat Verif.Spec.FloatSqrt Verif.Model.VectorStore Verif.Model.FloatVector

/-- length, vector.h:1099-1115: in one dimension the component itself. -/
def length (f : Format) {n : ℕ} (c : Store Bool n) (v : Store Number n) : Option Number :=
  if n = 1 then (parts v).head? else (lengthSquared f c v).map (sqrt f)

/-- distance_squared, vector.h:1145-1160. -/
def distanceSquared (f : Format) {n : ℕ} (c : Store Bool n) (p1 p2 : Store Number n) : Option Number :=
  (binary .sub f p2 p1).bind (lengthSquared f c)

/-- distance, vector.h:1169-1183. -/
def distance (f : Format) {n : ℕ} (c : Store Bool n) (p1 p2 : Store Number n) : Option Number := (distanceSquared f c p1 p2).map (sqrt f)

/-- normalize, vector.h:1996-2050: in one dimension always one. The variant with the output parameter (1996-2024) stores `length` there. -/
def normalize (f : Format) {n : ℕ} (c : Store Bool n) (v : Store Number n) : Option (Store Number n) :=
  if n = 1 then construct1 (fun _ => some (.fin false 1)) v else (length f c v).bind fun len => scale f v (reciprocal f len)

/-- The constant of normalized, vector.h:2167-2172: one divided by the integer that depends on the number of bits. -/
def epsilon (f : Format) : Number :=
  Op.div.eval f (.fin false 1) (f.round (.fin false (100 * (if 24 ≤ f.p then 10000 else 1) * (if 53 ≤ f.p then 10000 else 1))))

/-- normalized, vector.h:2164-2183, with approx_equal (math.h:452-457): `abs(1 - length_squared(v)) < epsilon`. -/
def normalized (f : Format) {n : ℕ} (c : Store Bool n) (v : Store Number n) : Option Bool :=
  (lengthSquared f c v).map fun s => Kahan.less (Kahan.abs (Op.sub.eval f (.fin false 1) s)) (epsilon f)

end Verif.Model.FloatLength
