import Verif.Model.VectorEq
import Verif.Model.IntVector
import Mathlib.Logic.Function.Basic
/-!
# The storage of a matrix: construction, access, equality, and element-wise arithmetic of integers

`/repo/include/muu/impl/matrix_base.h` and the corresponding members of `/repo/include/muu/matrix.h`. Constructors take the
conversions between scalar types (`static_cast`) as functions; `zero` is `scalar_type{}`. `none` is an ill-formed program or undefined
behaviour, as each definition says.
-/
namespace Verif.Model.MatrixStore
open Verif.Spec.CInt Verif.Spec.Parts Verif.Model.VectorStore

variable {α β : Type}

/-- matrix_base.h:26-28, `vector<Scalar, Rows> m[Columns]`. -/
abbrev Mat (α : Type) (R C : ℕ) : Type := Fin C → Store α R

/-- The scalars in the order in which they lie in memory: an array of columns, each without padding (vector.h:273). data()
    (matrix.h:2095-2107) points to the first. -/
def memory {R C : ℕ} (m : Mat α R C) : List α := (List.finRange C).flatMap fun c => parts (m c)

/-- `m{ cols... }`: the given columns, then value-initialised (zero) ones. `none`: the static_assert fails, or there are no rows. -/
def initColumns (zero : α) (R C : ℕ) (cols : List (Store α R)) : Option (Mat α R C) :=
  if cols.length ≤ C then gather fun c => if h : c.val < cols.length then some cols[c.val] else VectorStore.broadcast zero R else none

/-- matrix.h:1409-1412 and matrix_base.h:51-58. `none`: there are no rows. -/
def broadcast (zero : α) (a : α) (R C : ℕ) : Option (Mat α R C) := do
  initColumns zero R C (← (List.range C).mapM fun _ => VectorStore.broadcast a R)

/-- matrix.h:1616-1655 and matrix_base.h:61-66, from two or more columns of any sizes; their scalars are of one type for simplicity.
    The form without conversions (1639-1653) copies the columns. `none`: no such constructor. -/
def ofColumns (zero : α) (cast : β → α) (R C : ℕ) (cols : List (Σ d, Store β d)) : Option (Mat α R C) :=
  if 2 ≤ cols.length ∧ cols.length ≤ C then do
    initColumns zero R C (← cols.mapM fun col => VectorStore.convert zero cast R col.2)
  else none

/-- matrix.h:1579-1582 and matrix_base.h:68-75, the enlarging, truncating and converting constructor:
    `std::make_index_sequence<(C < Columns ? C : Columns)>`, `vector<Scalar, Rows>{ cols[ColumnIndices] }...`. -/
def convert (zero : α) (cast : β → α) (R C : ℕ) {R' C' : ℕ} (mat : Mat β R' C') : Option (Mat α R C) := do
  initColumns zero R C (← (List.range (if C' < C then C' else C)).mapM fun c =>
    if h : c < C' then VectorStore.convert zero cast R (mat ⟨c, h⟩) else none)

/-- get<r, c>(), matrix.h:2020-2029. `none`: a static_assert fails. -/
def get {R C : ℕ} (m : Mat α R C) (r c : ℕ) : Option α := if h : r < R ∧ c < C then component (m ⟨c, h.2⟩) r else none

/-- operator()(r, c), matrix.h:2031-2039. `none`: an assumption broken. -/
def lookup {R C : ℕ} (m : Mat α R C) (r c : ℕ) : Option α := if h : r < R ∧ c < C then index (m ⟨c, h.2⟩) r else none

/-- Assigning through the reference of get (matrix.h:2066-2072) or operator() (2088-2093). -/
def set {R C : ℕ} (m : Mat α R C) (r c : ℕ) (a : α) : Option (Mat α R C) :=
  if h : r < R ∧ c < C then do some (Function.update m ⟨c, h.2⟩ (← setComponent (m ⟨c, h.2⟩) r a)) else none

/-- operator==, matrix.h:2116-2141: the first different pair of columns decides. -/
def equal (a b : Kind) {R C : ℕ} (lhs rhs : Mat Num R C) : Bool :=
  !((List.finRange C).any fun i => VectorEq.notEqual a b (lhs i) (rhs i))

/-- operator!=, matrix.h:2143-2166. -/
def notEqual (a b : Kind) {R C : ℕ} (lhs rhs : Mat Num R C) : Bool := !equal a b lhs rhs

/-- zero, matrix.h:2168-2186. -/
def zero {R C : ℕ} (m : Mat Num R C) : Bool := !((List.finRange C).any fun i => !VectorEq.zero (m i))

/-- infinity_or_nan, matrix.h:2188-2215. -/
def infinityOrNan (a : Kind) {R C : ℕ} (m : Mat Num R C) : Bool :=
  if VectorEq.isFloat a then (List.finRange C).any fun i => VectorEq.infinityOrNan a (m i) else false

/-- A loop that assigns to the columns one after the other. -/
def forColumns {R C : ℕ} (body : Fin C → Mat α R C → Option (Store α R)) (m : Mat α R C) : Option (Mat α R C) :=
  (List.finRange C).foldlM (fun m i => do some (Function.update m i (← body i m))) m

/-- The right-hand side of a compound assignment: by value or another matrix, or by reference the matrix assigned to (MUU_VPARAM,
    preprocessor.h:1299-1301). -/
inductive Rhs (α : Type) (R C : ℕ) where
  | other (m : Mat α R C)
  | itself

/-- operator+= (matrix.h:2334-2339) and -= (2366-2371): `base::m[i] += rhs.m[i]`. -/
def binaryAssign (o : IntVector.Op) (t : Ty) {R C : ℕ} (m : Mat ℤ R C) (rhs : Rhs ℤ R C) : Option (Mat ℤ R C) :=
  forColumns (fun i m => IntVector.binaryAssign o t (m i) (match rhs with | .other w => .other (w i) | .itself => .itself)) m

/-- operator+ (matrix.h:2324-2331) and - (2356-2363): `matrix out{ lhs }; out.m[i] += rhs.m[i]`. -/
def binary (o : IntVector.Op) (t : Ty) {R C : ℕ} (lhs rhs : Mat ℤ R C) : Option (Mat ℤ R C) :=
  forColumns (fun i out => IntVector.binaryAssign o t (out i) (.other (rhs i))) lhs

/-- operator-, matrix.h:2374-2382: `out.m[i] = -out.m[i]`. -/
def negate (t : Ty) {R C : ℕ} (m : Mat ℤ R C) : Option (Mat ℤ R C) := forColumns (fun i out => IntVector.negate t (out i)) m

/-- operator*= (matrix.h:2617-2622) and /= (2640-2662) by a scalar: `for (auto& col : base::m) col *= rhs`. -/
def scalarAssign (o : IntVector.Op) (t : Ty) {R C : ℕ} (m : Mat ℤ R C) (k : ℤ) : Option (Mat ℤ R C) :=
  forColumns (fun i m => IntVector.scalarAssign o t (m i) k) m

/-- operator* of a matrix and a scalar, in both orders (matrix.h:2602-2615), and / (2631-2637). -/
def scalar (o : IntVector.Op) (t : Ty) {R C : ℕ} (m : Mat ℤ R C) (k : ℤ) : Option (Mat ℤ R C) := scalarAssign o t m k

end Verif.Model.MatrixStore
