import Verif.Model.FloatVector
import Verif.Model.Kahan
import Verif.Model.MatrixStore
/-!
# Cross products, interpolation and matrix products of floating-point numbers

`/repo/include/muu/vector.h` and `/repo/include/muu/matrix.h` for `float` and `double` (and any type that is an IEEE 754 format and not
promoted). As in `FloatVector`, which products are contracted with additions is a parameter.
-/
namespace Verif.Model.FloatProducts
open Verif.Spec.IeeeArith Verif.Spec.FloatFormat Verif.Model.VectorStore Verif.Model.MatrixStore Verif.Model.FloatVector

/-- `a * b - c * d`; at most one of the products is contracted with the subtraction. -/
def difference (f : Format) (k : Bool × Bool) (p q : Number × Number) : Number := Op.sub.eval f (product f p k.1) (product f q k.2)

/-- `a * b + c * d`; at most one of the products is contracted with the addition. -/
def combination (f : Format) (k : Bool × Bool) (p q : Number × Number) : Number := Op.add.eval f (product f p k.1) (product f q k.2)

/-- What contractions there are of two products. -/
def Once (k : Bool × Bool) : Prop := ¬(k.1 = true ∧ k.2 = true)

/-- cross, vector.h:1287-1308 (1304-1306), and the member function, 1367-1375. The contractions of the three components are chosen
independently. -/
def cross (f : Format) (k1 k2 k3 : Bool × Bool) : Store Number 3 → Store Number 3 → Store Number 3
  | .three x y z, .three x' y' z' =>
    .three (difference f k1 (y, z') (z, y')) (difference f k2 (z, x') (x, z')) (difference f k3 (x, y') (y, x'))

/-- cross of a vector and an axis, vector.h:1310-1337, and the member function, 1377-1385. `none`: the constraint is not met. -/
def crossAxis : Store Number 3 → ℕ → Option (Store Number 3)
  | .three _ y z, 0 => some (.three (.fin false 0) z y.negate)
  | .three x _ z, 1 => some (.three z.negate (.fin false 0) x)
  | .three x y _, 2 => some (.three y x.negate (.fin false 0))
  | _, _ => none

/-- cross of an axis and a vector, vector.h:1339-1365. -/
def axisCross : ℕ → Store Number 3 → Option (Store Number 3)
  | 0, .three _ y z => some (.three (.fin false 0) z.negate y)
  | 1, .three x _ z => some (.three z (.fin false 0) x.negate)
  | 2, .three x y _ => some (.three y.negate x (.fin false 0))
  | _, _ => none

/-- constants::x_axis, y_axis and z_axis (vector.h:3042, 3069, 3083), for indices below three. -/
def axis (i : ℕ) : Store Number 3 :=
  .three (.fin false (if i = 0 then 1 else 0)) (.fin false (if i = 1 then 1 else 0)) (.fin false (if i = 2 then 1 else 0))

/-- orthogonal, vector.h:1387-1402. -/
def orthogonal (f : Format) (k1 k2 k3 : Bool × Bool) : Store Number 3 → Store Number 3
  | .three a b c =>
    let x := Kahan.abs a
    let y := Kahan.abs b
    let z := Kahan.abs c
    cross f k1 k2 k3 (.three a b c)
      (if Kahan.less x y then (if Kahan.less x z then axis 0 else axis 2) else (if Kahan.less y z then axis 1 else axis 2))

/-- lerp, vector.h:2663-2691 (2679-2687), and in place, 2693-2703. -/
def lerp (f : Format) {n : ℕ} (k : Store (Bool × Bool) n) (start finish : Store Number n) (alpha : Number) : Option (Store Number n) := do
  let inv_alpha := Op.sub.eval f (.fin false 1) alpha
  let pairs ← construct (fun a b => some (a, b)) start finish
  construct (fun p k => some (combination f k (p.1, inv_alpha) (p.2, alpha))) pairs k

/-- `lhs(r, 0) * rhs(0, c)`, then `val += lhs(r, i) * rhs(i, c)` for the other `i < n`: matrix.h:2456-2460, 2534-2536, 2590-2592. The
unrolled square cases (2416-2450, 2508-2528, 2564-2584) are the same sums from left to right. `k i`: the product `i` is contracted with the
addition that takes it. -/
def sumOfProducts (f : Format) (n : ℕ) (k : ℕ → Bool) (g h : ℕ → Option Number) : Option Number := do
  let val := product f (← g 0, ← h 0) (k 0)
  (List.range' 1 (n - 1)).foldlM (fun val i => do some (Op.add.eval f val (product f (← g i, ← h i) (k i)))) val

/-- The contractions that a compiler can choose in a sum of `n` products, as `FloatVector.Contraction`. -/
def Chosen (n : ℕ) (k : ℕ → Bool) : Prop := (n = 1 → k 0 = false) ∧ ¬(k 0 = true ∧ k 1 = true)

/-- A vector of the given values in order: the braced lists of the unrolled cases, or assigned one by one. -/
def tabulate (n : ℕ) (g : ℕ → Option Number) : Option (Store Number n) := do init (.fin false 0) n (← (List.range n).mapM g)

/-- operator* of two matrices, matrix.h:2397-2467 (2410-2464). `k r c`: the contractions of the entry `(r, c)`. -/
def mul (f : Format) {R K C : ℕ} (k : ℕ → ℕ → ℕ → Bool) (lhs : Mat Number R K) (rhs : Mat Number K C) : Option (Mat Number R C) :=
  gather fun c => tabulate R fun r => sumOfProducts f K (k r c) (fun i => lookup lhs r i) (fun i => lookup rhs i c)

/-- operator*=, matrix.h:2482-2487: `*this = *this * rhs`. -/
def mulAssign (f : Format) {n : ℕ} (k : ℕ → ℕ → ℕ → Bool) (m : Mat Number n n) (rhs : MatrixStore.Rhs Number n n) : Option (Mat Number n n) :=
  mul f k m (match rhs with | .other w => w | .itself => m)

/-- operator* of a matrix and a column, matrix.h:2495-2545. -/
def mulVec (f : Format) {R C : ℕ} (k : ℕ → ℕ → Bool) (lhs : Mat Number R C) (rhs : Store Number C) : Option (Store Number R) :=
  tabulate R fun r => sumOfProducts f C (k r) (fun i => lookup lhs r i) (index rhs)

/-- operator* of a row and a matrix, matrix.h:2551-2600. -/
def vecMul (f : Format) {R C : ℕ} (k : ℕ → ℕ → Bool) (lhs : Store Number R) (rhs : Mat Number R C) : Option (Store Number C) :=
  tabulate C fun c => sumOfProducts f R (k c) (index lhs) (fun i => lookup rhs i c)

/-- transform_without_translating, matrix.h:805-822, and the member function, 824-829: three sums of three products. `none`: not a 3x3, 3x4 or
4x4 matrix. -/
def transformWithoutTranslating (f : Format) {R C : ℕ} (k : ℕ → ℕ → Bool) (xform : Mat Number R C) (dir : Store Number 3) :
    Option (Store Number 3) :=
  if (R = 3 ∨ R = 4) ∧ (C = 3 ∨ C = 4) ∧ R ≤ C then
    tabulate 3 fun r => sumOfProducts f 3 (k r) (fun i => get xform r i) (component dir)
  else none

/-- `get<r, 0>() * pos.x + get<r, 1>() * pos.y + get<r, 2>() * pos.z + get<r, 3>()`, matrix.h:740-743, 747-750, 753-756, 759-762. -/
def affine (f : Format) {R C : ℕ} (k : ℕ → Bool) (xform : Mat Number R C) (r : ℕ) (pos : Store Number 3) : Option Number := do
  let s ← sumOfProducts f 3 k (fun i => get xform r i) (component pos)
  some (Op.add.eval f s (← get xform r 3))

/-- `inv_w`, matrix.h:737-744. -/
def invW (f : Format) {R C : ℕ} (k : ℕ → Bool) (xform : Mat Number R C) (pos : Store Number 3) : Option Number :=
  if R = 4 then do some (Op.div.eval f (.fin false 1) (← affine f k xform 3 pos)) else some (.fin false 1)

/-- transform_position, matrix.h:724-764, the member function, 766-770, and operator*, 785-790. `none`: not a 3x3, 3x4 or 4x4 matrix. -/
def transformPosition (f : Format) {R C : ℕ} (k : ℕ → ℕ → Bool) (xform : Mat Number R C) (pos : Store Number 3) : Option (Store Number 3) :=
  if (R = 3 ∨ R = 4) ∧ (C = 3 ∨ C = 4) ∧ R ≤ C then
    if C = 3 then tabulate 3 fun r => sumOfProducts f 3 (k r) (fun i => lookup xform r i) (index pos)
    else do
      let inv_w ← invW f (k 3) xform pos
      tabulate 3 fun r => do some (Op.mul.eval f inv_w (← affine f (k r) xform r pos))
  else none

end Verif.Model.FloatProducts
