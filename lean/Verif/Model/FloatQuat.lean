import Verif.Model.FloatLength
import Verif.Model.FloatProducts
/-!
# Quaternions of floating-point numbers

`/repo/include/muu/quaternion.h` for `float` and `double` (and any type that is an IEEE 754 format and not promoted), each operation rounded once,
to nearest. As in `FloatVector` and `FloatProducts`, which products are contracted with additions is a parameter.
-/
namespace Verif.Model.FloatQuat
open Verif.Spec.IeeeArith Verif.Spec.FloatFormat Verif.Spec.FloatSqrt Verif.Model.VectorStore Verif.Model.FloatVector Verif.Model.FloatProducts

/-- A quaternion, quaternion.h:23-35: its scalar part and its vector part. -/
structure Quaternion where
  s : Number
  v : Store Number 3

/-- constants::identity, quaternion.h:1093. -/
def identity : Quaternion := ⟨.fin false 1, .three (.fin false 0) (.fin false 0) (.fin false 0)⟩

/-- dot, quaternion.h:476-489, and the member function, 491-496. `k`: the product of the scalar parts is contracted with the addition. -/
def dot (f : Format) (k : Bool) (c : Store Bool 3) (q1 q2 : Quaternion) : Option Number := do
  some (Op.add.eval f (product f (q1.s, q2.s) k) (← FloatVector.dot f c q1.v q2.v))

/-- normalize, quaternion.h:508-530. -/
def normalize (f : Format) (k : Bool) (c : Store Bool 3) (q : Quaternion) : Option Quaternion := do
  let inv_length := reciprocal f (sqrt f (← dot f k c q q))
  some ⟨Op.mul.eval f q.s inv_length, ← scale f q.v inv_length⟩

/-- normalized, quaternion.h:532-561, with approx_equal (math.h:452-457). The constant is that of vectors (vector.h:2167-2172). -/
def normalized (f : Format) (k : Bool) (c : Store Bool 3) (q : Quaternion) : Option Bool := do
  some (Kahan.less (Kahan.abs (Op.sub.eval f (.fin false 1) (← dot f k c q q))) (FloatLength.epsilon f))

/-- conjugate, quaternion.h:569-582. -/
def conjugate (q : Quaternion) : Option Quaternion := do some ⟨q.s, ← negate q.v⟩

/-- The contractions of a product of quaternions: of the scalar part, its dot product, the sum of the multiples of the vector parts, and the cross
product. -/
structure Choices where
  scalar : Bool
  dot : Store Bool 3
  sum : Store (Bool × Bool) 3
  cross1 : Bool × Bool
  cross2 : Bool × Bool
  cross3 : Bool × Bool

/-- multiply, quaternion.h:850-865, operator*, 890-895, and operator*=, 897-901. -/
def multiply (f : Format) (k : Choices) (lhs rhs : Quaternion) : Option Quaternion := do
  let d ← FloatVector.dot f k.dot lhs.v rhs.v
  let pairs ← construct (fun a b => some (a, b)) rhs.v lhs.v
  let sum ← construct (fun p c => some (combination f c (p.1, lhs.s) (p.2, rhs.s))) pairs k.sum
  some ⟨Op.sub.eval f (product f (lhs.s, rhs.s) k.scalar) d, ← binary .add f sum (cross f k.cross1 k.cross2 k.cross3 lhs.v rhs.v)⟩

/-- The contractions of a rotation: of the two cross products, and of the products with the scalar part. -/
structure Turning where
  first1 : Bool × Bool
  first2 : Bool × Bool
  first3 : Bool × Bool
  second1 : Bool × Bool
  second2 : Bool × Bool
  second3 : Bool × Bool
  scalar : Store Bool 3

/-- rotate_vector, quaternion.h:867-884, and both orders of operator*, 903-918. -/
def rotateVector (f : Format) (k : Turning) (lhs : Quaternion) (rhs : Store Number 3) : Option (Store Number 3) := do
  let t ← scale f (cross f k.first1 k.first2 k.first3 lhs.v rhs) (.fin false 2)
  let u := cross f k.second1 k.second2 k.second3 lhs.v t
  let st ← construct (fun a c => some (product f (a, lhs.s) c)) t k.scalar
  binary .add f (← binary .add f rhs st) u

end Verif.Model.FloatQuat
