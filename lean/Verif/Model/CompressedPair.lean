import Verif.Model.Sequences
/-!
# The elements of compressed pairs (include/muu/compressed_pair.h)

A pair has a slot for each direct base and each member. What a slot holds is given by values; an empty class has one value. Which elements are bases is modelled in `Verif.Model.Sequences` (claim C115).
-/
namespace Verif.Model.CompressedPair
open Verif.Model.Sequences

/-- One of the two elements. -/
inductive Element
  | first | second
  deriving DecidableEq

/-- The slots of `compressed_pair_base<First, Second>` (compressed_pair.h:45-158). -/
structure Pair (F S : Type) where
  base1 : Option F := none
  base2 : Option S := none
  first_ : Option F := none
  second_ : Option S := none

/-- The constructor from two values (compressed_pair.h:67-71, 91-95, 117-122, 141-146): the elements in the order in which they are initialised - bases before members, each in order of declaration -, and the pair. -/
def construct {F S : Type} (a b : CType) (f : F) (s : S) : List Element × Pair F S :=
  match a.canBeBase, b.canBeBase with
  | false, false => ([.first, .second], { first_ := some f, second_ := some s })
  | true, false => ([.first, .second], { base1 := some f, second_ := some s })
  | false, true => ([.second, .first], { base2 := some s, first_ := some f })
  | true, true => ([.first, .second], { base1 := some f, base2 := some s })

/-- `first()` (MUU_COMPRESSED_PAIR_BASE_GETTERS, compressed_pair.h:23-43, as used at 73, 97, 124, 148). -/
def first {F S : Type} (a b : CType) (p : Pair F S) : Option F :=
  match a.canBeBase, b.canBeBase with
  | false, _ => p.first_
  | true, _ => p.base1

/-- `second()` (compressed_pair.h:74, 98, 125, 149). -/
def second {F S : Type} (a b : CType) (p : Pair F S) : Option S :=
  match a.canBeBase, b.canBeBase with
  | _, false => p.second_
  | _, true => p.base2

/-- `get<I>()` (compressed_pair.h:237-278); `none` is the failed static_assert. -/
def get {F S : Type} (a b : CType) (i : ℕ) (p : Pair F S) : Option (F ⊕ S) :=
  if i ≤ 1 then (if i = 0 then (first a b p).map .inl else (second a b p).map .inr) else none

/-- std::tuple_element (compressed_pair.h:333-338): `true` is `Second`; `none` is the failed static_assert. -/
def tupleElement (i : ℕ) : Option Bool := if i < 2 then some (i == 1) else none

/-- Writing to what `first()` refers to. -/
def setFirst {F S : Type} (a b : CType) (p : Pair F S) (f : Option F) : Pair F S :=
  match a.canBeBase, b.canBeBase with
  | false, _ => { p with first_ := f }
  | true, _ => { p with base1 := f }

/-- Writing to what `second()` refers to. -/
def setSecond {F S : Type} (a b : CType) (p : Pair F S) (s : Option S) : Pair F S :=
  match a.canBeBase, b.canBeBase with
  | _, false => { p with second_ := s }
  | _, true => { p with base2 := s }

/-- swap (compressed_pair.h:281-288, 302-308): the first elements are swapped, then the second ones. -/
def swap {F S : Type} (a b : CType) (p q : Pair F S) : Pair F S × Pair F S :=
  let f := first a b p
  let p := setFirst a b p (first a b q)
  let q := setFirst a b q f
  let s := second a b p
  let p := setSecond a b p (second a b q)
  let q := setSecond a b q s
  (p, q)

end Verif.Model.CompressedPair
