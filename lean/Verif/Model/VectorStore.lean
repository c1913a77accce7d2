import Verif.Spec.Parts
import Mathlib.Data.Fin.Basic
/-!
# The storage of a vector: construction and access

`/repo/include/muu/impl/vector_base.h` and the constructors, accessors and component-wise macros of
`/repo/include/muu/vector.h`. Constructors take the conversions between scalar types (`static_cast`) as functions; `zero` is
`scalar_type{}`. `none` is an ill-formed program or undefined behaviour, as each definition says.
-/
namespace Verif.Model.VectorStore
open Verif.Spec.Parts

variable {α β γ : Type}

/-- vector_base.h:28-443, the members of storage_base<vector<Scalar, Dimensions>>: named scalars up to four, else an array. -/
inductive Store (α : Type) : ℕ → Type where
  | one (x : α) : Store α 1
  | two (x y : α) : Store α 2
  | three (x y z : α) : Store α 3
  | four (x y z w : α) : Store α 4
  | many {n : ℕ} (values : Fin (n + 5) → α) : Store α (n + 5)

/-- The scalars in the order in which they lie in memory (`static_assert` at vector.h:273: there is no padding), from data() on
    (vector.h:775-788); begin() and end() iterate over these. -/
def parts {n : ℕ} : Store α n → List α
  | .one x => [x]
  | .two x y => [x, y]
  | .three x y z => [x, y, z]
  | .four x y z w => [x, y, z, w]
  | .many values => List.ofFn values

/-- The constructors of vector_base.h that take components in order: `x{ ... }` for one dimension (54-70, exactly one),
    `storage_base{ componentwise_tag{}, ... }` with its default arguments for two to four (96-102, 182-190, 275-285), and the braced
    list of `values` above that (359-442; the rest of an array is value-initialised). `none` is an ill-formed program. -/
def init (zero : α) : (n : ℕ) → List α → Option (Store α n)
  | 1, [x] => some (.one x)
  | 2, [] => some (.two zero zero)
  | 2, [x] => some (.two x zero)
  | 2, [x, y] => some (.two x y)
  | 3, [] => some (.three zero zero zero)
  | 3, [x] => some (.three x zero zero)
  | 3, [x, y] => some (.three x y zero)
  | 3, [x, y, z] => some (.three x y z)
  | 4, [] => some (.four zero zero zero zero)
  | 4, [x] => some (.four x zero zero zero)
  | 4, [x, y] => some (.four x y zero zero)
  | 4, [x, y, z] => some (.four x y z zero)
  | 4, [x, y, z, w] => some (.four x y z w)
  | n + 5, l => if l.length ≤ n + 5 then some (.many fun i => l.getD i zero) else none
  | _, _ => none

/-- vector.h:336 and vector_base.h:89-93, 175-179, 265-272, 358-381: the constructors from two or more scalars. -/
def ofScalars (zero : α) (n : ℕ) (l : List α) : Option (Store α n) := if 2 ≤ l.length then init zero n l else none

/-- vector.h:388-395 and vector_base.h:49-52, 104-108, 192-197, 287-293, 383-394. -/
def broadcast (a : α) : (n : ℕ) → Option (Store α n)
  | 0 => none
  | 1 => some (.one a)
  | 2 => some (.two a a)
  | 3 => some (.three a a a)
  | 4 => some (.four a a a a)
  | _ + 5 => some (.many fun _ => a)

/-- vector.h:397-475, the constructors from an array, std::array (those that use bit_cast copy the same components), and from a
    span of fixed length, 628-643: `std::make_index_sequence<N>`, `static_cast<scalar_type>(arr[I])...`. Also 477-498, from a tuple. -/
def ofArray (zero : α) (cast : β → α) (n : ℕ) (arr : List β) : Option (Store α n) :=
  if arr.length ≤ n then init zero n (arr.map cast) else none

/-- do_get, vector.h:665-684. `none`: the static_assert fails. -/
def component {n : ℕ} : Store α n → ℕ → Option α
  | .one x, 0 => some x
  | .two x _, 0 => some x
  | .two _ y, 1 => some y
  | .three x _ _, 0 => some x
  | .three _ y _, 1 => some y
  | .three _ _ z, 2 => some z
  | .four x _ _ _, 0 => some x
  | .four _ y _ _, 1 => some y
  | .four _ _ z _, 2 => some z
  | .four _ _ _ w, 3 => some w
  | .many (n := n) values, i => if h : i < n + 5 then some (values ⟨i, h⟩) else none
  | _, _ => none

/-- Assigning through the reference that do_get returns, vector.h:665-684. -/
def setComponent {n : ℕ} : Store α n → ℕ → α → Option (Store α n)
  | .one _, 0, a => some (.one a)
  | .two _ y, 0, a => some (.two a y)
  | .two x _, 1, a => some (.two x a)
  | .three _ y z, 0, a => some (.three a y z)
  | .three x _ z, 1, a => some (.three x a z)
  | .three x y _, 2, a => some (.three x y a)
  | .four _ y z w, 0, a => some (.four a y z w)
  | .four x _ z w, 1, a => some (.four x a z w)
  | .four x y _ w, 2, a => some (.four x y a w)
  | .four x y z _, 3, a => some (.four x y z a)
  | .many (n := n) values, i, a => if i < n + 5 then some (.many fun k => if k.val = i then a else values k) else none
  | _, _, _ => none

/-- do_array_operator at compile time, vector.h:686-716: a switch over the names. `none`: MUU_UNREACHABLE or the assumption broken. -/
def indexConst {n : ℕ} (v : Store α n) (dim : ℕ) : Option α :=
  if dim < n then
    match v, dim with
    | .many values, i => if h : i < _ then some (values ⟨i, h⟩) else none
    | .one x, 0 => some x
    | .two x _, 0 => some x
    | .three x _ _, 0 => some x
    | .four x _ _ _, 0 => some x
    | .two _ y, 1 => some y
    | .three _ y _, 1 => some y
    | .four _ y _ _, 1 => some y
    | .three _ _ z, 2 => some z
    | .four _ _ z _, 2 => some z
    | .four _ _ _ w, 3 => some w
    | _, _ => none
  else none

/-- do_array_operator at run time, vector.h:717-724: `*(&vec.x + dim)`, or the array. `none`: the assumption broken. -/
def index {n : ℕ} (v : Store α n) (dim : ℕ) : Option α :=
  if dim < n then
    match v with
    | .many values => if h : dim < _ then some (values ⟨dim, h⟩) else none
    | v => (parts v)[dim]?
  else none

/-- vector.h:517-535, the enlarging, truncating and converting constructor:
    `std::make_index_sequence<(D < Dimensions ? D : Dimensions)>`, `static_cast<scalar_type>(get_from_tuple_like<I>(tpl))...`. -/
def convert (zero : α) (cast : β → α) (n : ℕ) {d : ℕ} (vec : Store β d) : Option (Store α n) := do
  let l ← (List.range (if d < n then d else n)).mapM (component vec)
  init zero n (l.map cast)

/-- vector.h:537-561, the concatenating constructor. `none` includes: the constraint is not met, or there is no such constructor
    (one dimension). -/
def concat (zero : α) (cast1 : β → α) (cast2 : γ → α) (n : ℕ) {d1 d2 : ℕ} (vec1 : Store β d1) (vec2 : Store γ d2) :
    Option (Store α n) :=
  if n ≥ d1 + d2 ∧ 2 ≤ n then do
    let l1 ← (List.range d1).mapM (component vec1)
    let l2 ← (List.range d2).mapM (component vec2)
    init zero n (l1.map cast1 ++ l2.map cast2)
  else none

/-- vector.h:563-586, the appending constructor; the scalars are given as values of one type for simplicity. -/
def append (zero : α) (cast1 : β → α) (cast2 : γ → α) (n : ℕ) {d : ℕ} (vec : Store β d) (vals : List γ) : Option (Store α n) :=
  if n ≥ d + vals.length ∧ 2 ≤ n then do
    let l ← (List.range d).mapM (component vec)
    init zero n (l.map cast1 ++ vals.map cast2)
  else none

/-- The memory of a vector being constructed: its scalars, of which some may not have been written yet. -/
def written : List (Option α) → Option (List α) := fun m => m.mapM id

/-- vector.h:588-614, the constructor from a pointer and a number: memcpy or a loop of conversions, then memset. The pointer is null
    or to at least the listed values. `none`: an assumption broken, a value read past the end, or scalars left unwritten. memcpy of
    values of the same type is the loop with `cast` the identity. -/
def ofPointer (zero : α) (cast : β → α) (n : ℕ) (vals : Option (List β)) (num : ℕ) : Option (Store α n) :=
  match vals with
  | none => none
  | some vals =>
    if num ≤ n then do
      let m ← (List.range num).foldlM (fun (m : List (Option α)) i => do
        let x ← vals[i]?
        some (m.set i (some (cast x)))) (List.replicate n none)
      let m := if num < n then (List.range (n - num)).foldl (fun (m : List (Option α)) i => m.set (num + i) (some zero)) m else m
      let l ← written m
      init zero n l
    else none

/-- vector.h:645-654, the constructor from a span of any length; the data of an empty span may be a null pointer. -/
def ofSpan (zero : α) (cast : β → α) (n : ℕ) (data : Option (List β)) (size : ℕ) : Option (Store α n) :=
  ofPointer zero cast n data size

/-- vector.h:616-626, from a pointer alone: `std::make_index_sequence<Dimensions>`. -/
def ofPointerAlone (zero : α) (cast : β → α) (n : ℕ) (vals : List β) : Option (Store α n) := do
  let l ← (List.range n).mapM (fun i => vals[i]?)
  init zero n (l.map cast)

/-- COMPONENTWISE_AND, vector.h:67-87. -/
def all {n : ℕ} (f : α → β → Bool) : Store α n → Store β n → Bool
  | .one x, .one x' => f x x'
  | .two x y, .two x' y' => f x x' && f y y'
  | .three x y z, .three x' y' z' => f x x' && f y y' && f z z'
  | .four x y z w, .four x' y' z' w' => f x x' && f y y' && f z z' && f w w'
  | .many (n := n) v, .many v' => (List.finRange (n + 5)).all fun i => f (v i) (v' i)

/-- COMPONENTWISE_OR, vector.h:89-109, of a function of one vector. -/
def any {n : ℕ} (f : α → Bool) : Store α n → Bool
  | .one x => f x
  | .two x y => f x || f y
  | .three x y z => f x || f y || f z
  | .four x y z w => f x || f y || f z || f w
  | .many (n := n) v => (List.finRange (n + 5)).any fun i => f (v i)

/-- COMPONENTWISE_ACCUMULATE, vector.h:111-131; `none`: the operation is undefined. -/
def accumulate {n : ℕ} (op : α → α → Option α) : Store α n → Option α
  | .one x => some x
  | .two x y => op x y
  | .three x y z => do op (← op x y) z
  | .four x y z w => do op (← op (← op x y) z) w
  | .many (n := n) v => do
    let val ← op (← op (← op (v 0) (v 1)) (v 2)) (v 3)
    (List.finRange (n + 1)).foldlM (fun val i => op val (v ⟨i.val + 4, by omega⟩)) val

/-- The values of a function that is defined everywhere. -/
def gather {n : ℕ} (f : Fin n → Option γ) : Option (Fin n → γ) :=
  if h : ∀ i, (f i).isSome then some fun i => (f i).get (h i) else none

/-- COMPONENTWISE_CONSTRUCT, vector.h:135-182; `none`: the function is undefined for a component. -/
def construct {n : ℕ} (f : α → β → Option γ) : Store α n → Store β n → Option (Store γ n)
  | .one x, .one x' => do some (.one (← f x x'))
  | .two x y, .two x' y' => do some (.two (← f x x') (← f y y'))
  | .three x y z, .three x' y' z' => do some (.three (← f x x') (← f y y') (← f z z'))
  | .four x y z w, .four x' y' z' w' => do some (.four (← f x x') (← f y y') (← f z z') (← f w w'))
  | .many v, .many v' => do some (.many (← gather fun i => f (v i) (v' i)))

/-- COMPONENTWISE_CONSTRUCT, vector.h:135-182, of a function of one vector. -/
def construct1 {n : ℕ} (f : α → Option γ) : Store α n → Option (Store γ n)
  | .one x => do some (.one (← f x))
  | .two x y => do some (.two (← f x) (← f y))
  | .three x y z => do some (.three (← f x) (← f y) (← f z))
  | .four x y z w => do some (.four (← f x) (← f y) (← f z) (← f w))
  | .many v => do some (.many (← gather fun i => f (v i)))

/-- The right-hand side of a compound assignment: taken by value or another vector, or by reference the vector assigned to
    (MUU_VPARAM, preprocessor.h:1299-1301). -/
inductive Rhs (β : Type) (n : ℕ) where
  | other (v : Store β n)
  | itself

/-- COMPONENTWISE_ASSIGN, vector.h:135-156, 184-207: the components one after the other, each read as it then is. -/
def assign {n : ℕ} (f : α → α → Option α) (v : Store α n) (rhs : Rhs α n) : Option (Store α n) :=
  (List.range n).foldlM (fun v i => do
    let a ← component v i
    let b ← match rhs with
      | .other w => component w i
      | .itself => component v i
    setComponent v i (← f a b)) v

/-- COMPONENTWISE_ASSIGN, vector.h:135-156, 184-207, with a scalar taken by value on the right. -/
def assign1 {n : ℕ} (f : α → Option α) (v : Store α n) : Option (Store α n) :=
  (List.range n).foldlM (fun v i => do setComponent v i (← f (← component v i))) v

end Verif.Model.VectorStore
