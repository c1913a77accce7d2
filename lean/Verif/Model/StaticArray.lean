/-!
# Model of static_array

Models `/repo/include/muu/static_array.h`: an array whose elements are template arguments, that is a non-empty list (an
empty one does not compile, line 32). `none`: the expression is not a constant expression, so the program does not
compile.
-/
namespace Verif.Model.StaticArray

/-- size, lines 42–47 -/
def size {α : Type} (a : List α) : Nat := a.length

/-- empty, lines 50–55 -/
def empty {α : Type} (a : List α) : Bool := a.length > 0

/-- front, lines 58–63 -/
def front {α : Type} (a : List α) : Option α := a[0]?

/-- back, lines 66–71 -/
def back {α : Type} (a : List α) : Option α := a[a.length - 1]?

/-- is_equal, lines 161–162: the two types are the same exactly if the arguments are -/
def isEqual {α : Type} [DecidableEq α] (a b : List α) : Bool := a = b

/-- is_less, lines 164–188. Pointers are pairs of an array (0: this, 1: the other) and an index; `last2` (line 176) is
    computed from `last1`, so it points past the end of *this* array, which is not allowed in a constant expression unless
    nothing is added. Simplification: the template argument list `<T, E...>` of line 167, which does not fit the
    declaration in line 161, is read as `<E...>`. -/
def isLess {α : Type} [DecidableEq α] (lt : α → α → Bool) (a b : List α) : Option Bool :=
  if isEqual a b then some false
  else
    -- last2 = last1 + sizeof...(E)
    let last2 : Nat × Nat := (0, a.length + b.length)
    if last2.2 > a.length then none
    else loop a b last2 0
where
  /-- the loop of lines 178–186, at index `i` of both arrays; comparing pointers into different arrays for equality gives
      unequal -/
  loop (a b : List α) (last2 : Nat × Nat) (i : Nat) : Option Bool :=
    if h : i < a.length ∧ (1, i) ≠ last2 then
      match a[i]?, b[i]? with
      | some x, some y => if lt x y then some true else if lt y x then some false else loop a b last2 (i + 1)
      | _, _ => none
    else some (i = a.length && (1, i) ≠ last2)
  termination_by a.length - i
  decreasing_by omega

end Verif.Model.StaticArray
