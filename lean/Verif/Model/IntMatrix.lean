import Verif.Model.MatrixStore
/-!
# Products and determinants of matrices of integers

`/repo/include/muu/matrix.h` for integral scalar types, with the language's conversions and undefined behaviour. `none` is undefined
behaviour.
-/
namespace Verif.Model.IntMatrix
open Verif.Spec.CInt Verif.Model.VectorStore Verif.Model.MatrixStore
open Verif.Model.IntVector (Op productType)

/-- `lhs(r, 0) * rhs(0, c)`, then `val += lhs(r, i) * rhs(i, c)` for the other `i < n`, in type `p`: matrix.h:2456-2460, 2534-2536,
    2590-2592. The unrolled square cases (2416-2450, 2508-2528, 2564-2584) are the same sums from left to right (claim C75 has them
    written out). -/
def sumOfProducts (p : Ty) (n : ℕ) (f g : ℕ → Option ℤ) : Option ℤ := do
  let val ← Op.mul.eval p (← f 0) (← g 0)
  (List.range' 1 (n - 1)).foldlM (fun val i => do Op.add.eval p val (← Op.mul.eval p (← f i) (← g i))) val

/-- A vector of the given values in order: the braced lists of the unrolled cases, or assigned one by one. -/
def tabulate (n : ℕ) (f : ℕ → Option ℤ) : Option (Store ℤ n) := do init 0 n (← (List.range n).mapM f)

/-- operator* of two matrices of a type that needs no promotion, matrix.h:2410-2464. -/
def mulIn (p : Ty) {R K C : ℕ} (lhs : Mat ℤ R K) (rhs : Mat ℤ K C) : Option (Mat ℤ R C) :=
  gather fun c => tabulate R fun r => sumOfProducts p K (fun i => lookup lhs r i) (fun i => lookup rhs i c)

/-- operator* of two matrices, matrix.h:2396-2467; product_requires_promotion, 1358-1362. -/
def mul (t : Ty) {R K C : ℕ} (lhs : Mat ℤ R K) (rhs : Mat ℤ K C) : Option (Mat ℤ R C) :=
  if productType t = t then mulIn t lhs rhs
  else do
    let out ← mulIn (productType t) (← convert 0 (CInt.conv (productType t)) R K lhs) (← convert 0 (CInt.conv (productType t)) K C rhs)
    convert 0 (CInt.conv t) R C out

/-- operator*=, matrix.h:2483-2487: `*this = *this * rhs`. -/
def mulAssign (t : Ty) {n : ℕ} (m : Mat ℤ n n) (rhs : Rhs ℤ n n) : Option (Mat ℤ n n) :=
  mul t m (match rhs with | .other w => w | .itself => m)

/-- operator* of a matrix and a column, matrix.h:2495-2545. -/
def mulVec (t : Ty) {R C : ℕ} (lhs : Mat ℤ R C) (rhs : Store ℤ C) : Option (Store ℤ R) :=
  let mulIn (p : Ty) (lhs : Mat ℤ R C) (rhs : Store ℤ C) := tabulate R fun r => sumOfProducts p C (fun i => lookup lhs r i) (index rhs)
  if productType t = t then mulIn t lhs rhs
  else do
    let out ← mulIn (productType t) (← convert 0 (CInt.conv (productType t)) R C lhs)
      (← VectorStore.convert 0 (CInt.conv (productType t)) C rhs)
    VectorStore.convert 0 (CInt.conv t) R out

/-- operator* of a row and a matrix, matrix.h:2551-2600. -/
def vecMul (t : Ty) {R C : ℕ} (lhs : Store ℤ R) (rhs : Mat ℤ R C) : Option (Store ℤ C) :=
  let mulIn (p : Ty) (lhs : Store ℤ R) (rhs : Mat ℤ R C) := tabulate C fun c => sumOfProducts p R (index lhs) (fun i => lookup rhs i c)
  if productType t = t then mulIn t lhs rhs
  else do
    let out ← mulIn (productType t) (← VectorStore.convert 0 (CInt.conv (productType t)) R lhs)
      (← convert 0 (CInt.conv (productType t)) R C rhs)
    VectorStore.convert 0 (CInt.conv t) C out

/-- MAT_GET, matrix.h:1023: `static_cast<determinant_type>`; determinant_type, 1336-1337, is the same type as product_scalar_type. -/
def matGet (t : Ty) {R C : ℕ} (m : Mat ℤ R C) (r c : ℕ) : Option ℤ := do some (CInt.conv (productType t) (← get m r c))

/-- raw_determinant_2x2, matrix.h:1025-1036. -/
def rawDeterminant2 (t : Ty) {R C : ℕ} (m : Mat ℤ R C) (r0 r1 c0 c1 : ℕ) : Option ℤ := do
  Op.sub.eval (productType t) (← Op.mul.eval (productType t) (← matGet t m r0 c0) (← matGet t m r1 c1))
    (← Op.mul.eval (productType t) (← matGet t m r0 c1) (← matGet t m r1 c0))

/-- raw_determinant_3x3, matrix.h:1038-1055. -/
def rawDeterminant3 (t : Ty) {R C : ℕ} (m : Mat ℤ R C) (r0 r1 r2 c0 c1 c2 : ℕ) : Option ℤ := do
  let p := productType t
  let a ← Op.mul.eval p (← matGet t m r0 c0) (← rawDeterminant2 t m r1 r2 c1 c2)
  let b ← Op.mul.eval p (← matGet t m r0 c1) (← rawDeterminant2 t m r1 r2 c0 c2)
  let c ← Op.mul.eval p (← matGet t m r0 c2) (← rawDeterminant2 t m r1 r2 c0 c1)
  Op.add.eval p (← Op.sub.eval p a b) c

/-- raw_determinant_4x4, matrix.h:1057-1077. -/
def rawDeterminant4 (t : Ty) {R C : ℕ} (m : Mat ℤ R C) (r0 r1 r2 r3 c0 c1 c2 c3 : ℕ) : Option ℤ := do
  let p := productType t
  let a ← Op.mul.eval p (← matGet t m r0 c0) (← rawDeterminant3 t m r1 r2 r3 c1 c2 c3)
  let b ← Op.mul.eval p (← matGet t m r0 c1) (← rawDeterminant3 t m r1 r2 r3 c0 c2 c3)
  let c ← Op.mul.eval p (← matGet t m r0 c2) (← rawDeterminant3 t m r1 r2 r3 c0 c1 c3)
  let d ← Op.mul.eval p (← matGet t m r0 c3) (← rawDeterminant3 t m r1 r2 r3 c0 c1 c2)
  Op.sub.eval p (← Op.add.eval p (← Op.sub.eval p a b) c) d

/-- determinant, matrix.h:2735-2752. `none` also: more than four columns, where there is none. -/
def determinant (t : Ty) {n : ℕ} (m : Mat ℤ n n) : Option ℤ := do
  some (CInt.conv (productType t) (← match n with
    | 1 => matGet t m 0 0
    | 2 => rawDeterminant2 t m 0 1 0 1
    | 3 => rawDeterminant3 t m 0 1 2 0 1 2
    | 4 => rawDeterminant4 t m 0 1 2 3 0 1 2 3
    | _ => none))

end Verif.Model.IntMatrix
