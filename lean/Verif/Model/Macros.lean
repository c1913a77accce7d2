/-!
# Macros over lists of arguments (`impl/preprocessor_for_each.h`, `preprocessor.h`)

The arguments of a macro are texts; `Arg` is any type of texts with an `empty` one.  An invocation with
nothing between its parentheses has one argument, which is empty.  A macro whose parameters are not matched
by its arguments is ill-formed (`none`).

Simplification: `MUU_FOR_EACH_FORCE_UNROLL` and `MUU_COUNT_VA_ARGS_IMPL_EXPANDER` forward their arguments
(they exist so that MSVC splits forwarded arguments at commas) and are left out.
-/

namespace Verif.Model.Macros

variable {Arg : Type}

/-- The arguments of an invocation: none written is one empty argument (rule of the preprocessor). -/
def passed (empty : Arg) : List Arg → List Arg
  | [] => [empty]
  | a :: l => a :: l

/-- What `MUU_FOR_EACH_IMPL_SELECT` chooses among: arguments and names of the macros `MUU_FOR_EACH_IMPL_n`. -/
inductive Item (Arg : Type) where
  | arg (a : Arg)
  | impl (n : Nat)
  deriving DecidableEq, Repr

/-- `MUU_FOR_EACH_IMPL_n(fn, args...)` (`include/muu/impl/preprocessor_for_each.h:14-138`): the arguments to
which `fn` is applied in the expansion, in order.  `MUU_FOR_EACH_IMPL_0` takes exactly one argument; each
other one applies `fn` to the first and passes on the rest to the one before it. -/
def impl (empty : Arg) : Nat → List Arg → Option (List Arg)
  | 0, [x] => some [x]
  | 0, _ => none
  | _ + 1, [] => none
  | n + 1, x :: rest => (impl empty n (passed empty rest)).map (x :: ·)

/-- The names `MUU_FOR_EACH_IMPL_124, ..., MUU_FOR_EACH_IMPL_0` which `MUU_FOR_EACH` appends to its arguments
(`include/muu/impl/preprocessor_for_each.h:152-176`). -/
def names : List (Item Arg) := (List.range 125).reverse.map .impl

/-- `MUU_FOR_EACH_IMPL_SELECT` (`include/muu/impl/preprocessor_for_each.h:142-149`): it has parameters `_0` to
`_124`, then `fn`, which it expands to, then any others. -/
def select (items : List (Item Arg)) : Option (Item Arg) := items[125]?

/-- `MUU_FOR_EACH(fn, ...)` (`include/muu/impl/preprocessor_for_each.h:151-176`): the arguments to which `fn`
is applied in the expansion, in order; `none` if what is selected is not one of the macros. -/
def forEach (empty : Arg) (args : List Arg) : Option (List Arg) :=
  match select ((passed empty args).map .arg ++ names) with
  | some (.impl n) => impl empty n (passed empty args)
  | _ => none

/-- What `MUU_COUNT_VA_ARGS_IMPL` chooses among: arguments and numbers. -/
inductive Count (Arg : Type) where
  | arg (a : Arg)
  | number (n : Nat)
  deriving DecidableEq, Repr

/-- `MUU_COUNT_VA_ARGS(...)` (`include/muu/impl/preprocessor_for_each.h:190-206`): the numbers from 124 down to 0
are appended to the arguments; `MUU_COUNT_VA_ARGS_IMPL` has parameters `_1_` to `_124_`, then `count`, which
it expands to, then any others. -/
def count (empty : Arg) (args : List Arg) : Option (Count Arg) :=
  ((passed empty args).map Count.arg ++ (List.range 125).reverse.map Count.number)[124]?

/-- `MUU_MAKE_VERSION(major, minor, patch)` (`include/muu/preprocessor.h:81-83`), without overflow. -/
def version (major minor patch : Nat) : Nat := major * 10000 + minor * 100 + patch

end Verif.Model.Macros
