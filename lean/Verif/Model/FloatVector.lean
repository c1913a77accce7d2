import Verif.Spec.FloatFormat
import Verif.Model.VectorStore
/-!
# Arithmetic of vectors of floating-point numbers

The operators of `/repo/include/muu/vector.h` for `float` and `double` (and any type that is an IEEE 754 format and not promoted), each
language operation rounded once, to nearest, but for the contractions that are a parameter where the code allows them.
-/
namespace Verif.Model.FloatVector
open Verif.Spec.Parts Verif.Spec.IeeeArith Verif.Spec.FloatFormat Verif.Model.VectorStore

/-- `+`, `-`, `*`, `/` of the language. -/
inductive Op where
  | add | sub | mul | div

/-- The built-in operators (IEEE 754-2008, 5.4.1). -/
def Op.eval (f : Format) (a b : Number) : Op → Number
  | .add => f.round (a.add b)
  | .sub => f.round (a.sub b)
  | .mul => f.round (a.mul b)
  | .div => f.round (a.div b)

/-- operator+ (vector.h:1421-1439), - (1515-1533), * (1575-1593), / (1708-1726) of two vectors. -/
def binary (o : Op) (f : Format) {n : ℕ} (v w : Store Number n) : Option (Store Number n) := construct (fun a b => some (o.eval f a b)) v w

/-- operator+= (vector.h:1441-1458), -= (1535-1552), *= (1595-1612), /= (1728-1745). -/
def binaryAssign (o : Op) (f : Format) {n : ℕ} (v : Store Number n) (rhs : Rhs Number n) : Option (Store Number n) :=
  assign (fun a b => some (o.eval f a b)) v rhs

/-- operator* of a vector and a scalar, vector.h:1614-1639. -/
def scale (f : Format) {n : ℕ} (v : Store Number n) (k : Number) : Option (Store Number n) := construct1 (fun a => some (Op.mul.eval f a k)) v

/-- operator*= by a scalar, vector.h:1641-1658. -/
def scaleAssign (f : Format) {n : ℕ} (v : Store Number n) (k : Number) : Option (Store Number n) := assign1 (fun a => some (Op.mul.eval f a k)) v

/-- `scalar_type{ 1 } / rhs`. -/
def reciprocal (f : Format) (k : Number) : Number := Op.div.eval f (.fin false 1) k

/-- operator/ of a vector and a scalar, vector.h:1747-1769 (1755-1758). -/
def divide (f : Format) {n : ℕ} (v : Store Number n) (k : Number) : Option (Store Number n) := scale f v (reciprocal f k)

/-- operator/= by a scalar, vector.h:1771-1793 (1779-1782). -/
def divideAssign (f : Format) {n : ℕ} (v : Store Number n) (k : Number) : Option (Store Number n) := scaleAssign f v (reciprocal f k)

/-- operator-, vector.h:1554-1566. -/
def negate {n : ℕ} (v : Store Number n) : Option (Store Number n) := construct1 (fun a => some a.negate) v

/-- sum, vector.h:1467-1499. -/
def sum (f : Format) {n : ℕ} (v : Store Number n) : Option Number := accumulate (fun a b => some (Op.add.eval f a b)) v

/-- A choice that a compiler has within `MUU_FMA_BLOCK` (vector.h:114): a product can be contracted with the addition that takes it, into one
operation with one rounding. An addition takes one product at most in this way; a product that no addition takes is not contracted. -/
def Contraction {n : ℕ} (c : Store Bool n) : Prop :=
  match parts c with
  | [a] => a = false
  | a :: b :: _ => ¬(a = true ∧ b = true)
  | [] => True

/-- A product, before the addition that takes it. -/
def product (f : Format) (p : Number × Number) (contracted : Bool) : Number :=
  if contracted then p.1.mul p.2 else Op.mul.eval f p.1 p.2

/-- dot, vector.h:1219-1238. -/
def dot (f : Format) {n : ℕ} (c : Store Bool n) (v w : Store Number n) : Option Number := do
  let pairs ← construct (fun a b => some (a, b)) v w
  let products ← construct (fun p c => some (product f p c)) pairs c
  accumulate (fun a b => some (Op.add.eval f a b)) products

/-- length_squared, vector.h:1072-1091. -/
def lengthSquared (f : Format) {n : ℕ} (c : Store Bool n) (v : Store Number n) : Option Number := dot f c v v

end Verif.Model.FloatVector
