import Verif.Model.VectorStore
import Verif.Model.CInt
/-!
# Arithmetic of vectors of integers

The operators of `/repo/include/muu/vector.h` for integral scalar types, with the language's integral promotions and undefined
behaviour (C++17 [conv.prom], [expr.add], [expr.mul], [expr.shift]); `int` has 32 bits. `none` is undefined behaviour.
-/
namespace Verif.Model.IntVector
open Verif.Spec.CInt Verif.Spec.Parts Verif.Model.VectorStore

/-- The result of an arithmetic operation in a type that is not smaller than `int`: undefined if it is signed and cannot represent
    the result, else reduced. -/
def result (p : Ty) (x : ℤ) : Option ℤ := if p.signed then (if p.Has x then some x else none) else some (CInt.conv p x)

/-- `+`, `-`, `*`, `/`, `%` of the language in a type that is not smaller than `int`. -/
inductive Op where
  | add | sub | mul | div | mod

/-- The built-in operators; a remainder is defined only if the quotient is. -/
def Op.eval (p : Ty) (a b : ℤ) : Op → Option ℤ
  | .add => result p (a + b)
  | .sub => result p (a - b)
  | .mul => result p (a * b)
  | .div => if b = 0 then none else result p (a.tdiv b)
  | .mod => if b = 0 then none else do
    let _ ← result p (a.tdiv b)
    result p (a.tmod b)

/-- One component of `lhs.member + rhs.member` and its kin: the operands are promoted, and the result is cast back to the scalar type
    (COMPONENTWISE_CASTING_OP, vector.h:135-156); impl::raw_modulo (impl/vector_types_common.h:20-37) for `%`. -/
def lane (o : Op) (t : Ty) (a b : ℤ) : Option ℤ := do
  some (CInt.conv t (← o.eval (CInt.promote t) a b))

/-- operator+ (vector.h:1421-1439), - (1515-1533), * (1575-1593), / (1708-1726), % (1802-1820) of two vectors. -/
def binary (o : Op) (t : Ty) {n : ℕ} (v w : Store ℤ n) : Option (Store ℤ n) := construct (lane o t) v w

/-- operator* (vector.h:1614-1639), / (1747-1769), % (1841-1859) of a vector and a scalar. -/
def scalar (o : Op) (t : Ty) {n : ℕ} (v : Store ℤ n) (k : ℤ) : Option (Store ℤ n) := construct1 (fun a => lane o t a k) v

/-- operator+= (vector.h:1441-1458), -= (1535-1552), *= (1595-1612), /= (1728-1745), %= (1822-1839). -/
def binaryAssign (o : Op) (t : Ty) {n : ℕ} (v : Store ℤ n) (rhs : Rhs ℤ n) : Option (Store ℤ n) := assign (lane o t) v rhs

/-- operator*= (vector.h:1641-1658), /= (1771-1793), %= (1861-1878) by a scalar, which is taken by value. -/
def scalarAssign (o : Op) (t : Ty) {n : ℕ} (v : Store ℤ n) (k : ℤ) : Option (Store ℤ n) := assign1 (fun a => lane o t a k) v

/-- operator-, vector.h:1554-1566 (only for signed types). -/
def negate (t : Ty) {n : ℕ} (v : Store ℤ n) : Option (Store ℤ n) :=
  construct1 (fun a => do some (CInt.conv t (← result (CInt.promote t) (-a)))) v

/-- sum (vector.h:1467-1499) and product (1660-1692): in `decltype(scalar_type{} + scalar_type{})`, to which the vector is converted if
    it is another type. -/
def fold (o : Op) (t : Ty) {n : ℕ} (v : Store ℤ n) : Option ℤ :=
  if n = 1 then accumulate (fun a b => o.eval (CInt.promote t) a b) v
  else if CInt.promote t ≠ t then do
    let w ← construct1 (fun a => some (CInt.conv (CInt.promote t) a)) v
    some (CInt.conv t (← accumulate (fun a b => o.eval (CInt.promote t) a b) w))
  else accumulate (fun a b => o.eval t a b) v

/-- product_scalar_type, vector.h:251-253: `highest_ranked<make_signed<scalar_type>, int>`. -/
def productType (t : Ty) : Ty := ⟨max t.bits 32, true⟩

/-- The converting constructor of the vector of product_scalar_type (claim C137), if that is another type (vector.h:279-283). -/
def promoted (t : Ty) {n : ℕ} (v : Store ℤ n) : Option (Store ℤ n) :=
  if productType t = t then some v else construct1 (fun a => some (CInt.conv (productType t) a)) v

/-- dot, vector.h:1219-1238. -/
def dot (t : Ty) {n : ℕ} (v w : Store ℤ n) : Option ℤ := do
  let v ← promoted t v
  let w ← promoted t w
  let products ← construct (fun a b => Op.mul.eval (productType t) a b) v w
  accumulate (fun a b => Op.add.eval (productType t) a b) products

/-- cross, vector.h:1287-1308. -/
def cross (t : Ty) (v w : Store ℤ 3) : Option (Store ℤ 3) := do
  let p := productType t
  let minor (a b c d : ℤ) : Option ℤ := do Op.sub.eval p (← Op.mul.eval p a b) (← Op.mul.eval p c d)
  match ← promoted t v, ← promoted t w with
  | .three x y z, .three x' y' z' => do some (.three (← minor y z' z y') (← minor z x' x z') (← minor x y' y x'))

/-- `a << k` in a signed type (C++17 [expr.shift]): undefined if the number of bits is negative or not less than the width, or `a` is
    negative, or the result does not fit into the unsigned type of the same width. -/
def shl (p : Ty) (a k : ℤ) : Option ℤ :=
  if 0 ≤ k ∧ k < p.bits ∧ 0 ≤ a ∧ a * 2 ^ k.toNat ≤ 2 ^ p.bits - 1 then some (CInt.conv p (a * 2 ^ k.toNat)) else none

/-- `a >> k` in a signed type: arithmetic, as all compilers that muu supports define it. -/
def shr (p : Ty) (a k : ℤ) : Option ℤ := if 0 ≤ k ∧ k < p.bits then some (a / 2 ^ k.toNat) else none

/-- operator<< and <<=, vector.h:1888-1935: in the vector of product_scalar_type, converted back if that is another type. -/
def shiftLeft (t : Ty) {n : ℕ} (v : Store ℤ n) (k : ℤ) : Option (Store ℤ n) := do
  construct1 (fun a => do some (CInt.conv t (← shl (productType t) a k))) (← promoted t v)

/-- operator>> and >>=, vector.h:1937-1984: in the vector of product_scalar_type, converted back if that is another type. -/
def shiftRight (t : Ty) {n : ℕ} (v : Store ℤ n) (k : ℤ) : Option (Store ℤ n) := do
  construct1 (fun a => do some (CInt.conv t (← shr (productType t) a k))) (← promoted t v)

end Verif.Model.IntVector
