import Mathlib.Data.List.Basic
import Mathlib.Data.Int.Basic

/-!
# Model of `for_sequence` and `for_product` (`include/muu/for_sequence.h`) and of `compressed_pair`
(`include/muu/compressed_pair.h`)
-/

namespace Verif.Model.Sequences

variable {W ι : Type}

/-- A fold over the comma operator, `(f(x), ...)`: left to right; the flag tells that a call threw, which ends it. -/
def comma (f : ι → W → W × Bool) : List ι → W → W × Bool
  | [], w => (w, false)
  | i :: is, w =>
    let r := f i w
    if r.2 then r else comma f is r.1

/-- `std::make_integer_sequence`: `0, 1, …, n - 1`. -/
def integers (n : ℕ) : List ℕ := List.range n

/-- `for_sequence`: `for_sequence.h` 22-45, 73-84; `none` is the `static_assert` for negative counts.
The function object is passed by reference, so that all calls are of the same object. -/
def forSequence (n : ℤ) (f : ℕ → W → W × Bool) (w : W) : Option (W × Bool) :=
  if n < 0 then none
  else if n > 0 then some (comma f (integers n.toNat) w)
  else some (w, false)

/-- `for_product`: `for_sequence.h` 116-134, 173-189. -/
def forProduct (n1 n2 : ℤ) (f : ℕ → ℕ → W → W × Bool) (w : W) : Option (W × Bool) :=
  if n1 < 0 ∨ n2 < 0 then none
  else if n1 > 0 ∧ n2 > 0 then
    some (comma (fun i w => comma (fun j w => f i j w) (integers n2.toNat) w) (integers n1.toNat) w)
  else some (w, false)

/-- What matters to `compressed_pair` of a type: `ancestors` are the base classes of a class, those of its base classes and so on, each as often as it is a part of the class. -/
structure CType where
  id : ℕ
  isEmpty : Bool
  isFinal : Bool
  ancestors : List ℕ := []

/-- `FirstCanBeBase`, `SecondCanBeBase`: `compressed_pair.h` 48-50. -/
def CType.canBeBase (t : CType) : Bool := t.isEmpty && !t.isFinal

/-- The direct bases of `compressed_pair_base` (`compressed_pair.h` 45-158). -/
def bases (first second : CType) : List ℕ :=
  match first.canBeBase, second.canBeBase with
  | false, false => []
  | true, false => [first.id]
  | false, true => [second.id]
  | true, true => [first.id, second.id]

/-- The non-static data members of `compressed_pair_base` (`compressed_pair.h` 45-158). -/
def members (first second : CType) : List ℕ :=
  match first.canBeBase, second.canBeBase with
  | false, false => [first.id, second.id]
  | true, false => [second.id]
  | false, true => [first.id]
  | true, true => []

/-- Whether the class compiles: no class may be a direct base twice ([class.mi]). -/
def compiles (first second : CType) : Bool := decide (bases first second).Nodup

/-- The base classes of the pair, direct and indirect, each as often as it is a part of the pair. -/
def inherited (first second : CType) : List ℕ :=
  (if first.canBeBase then first.id :: first.ancestors else []) ++ (if second.canBeBase then second.id :: second.ancestors else [])

/-- Whether `first()` and `second()` compile (MUU_COMPRESSED_PAIR_BASE_GETTERS, `compressed_pair.h` 23-43, with `*this` for a base): a reference to the pair is converted to one to a base class only if that is a part of the pair once ([class.member.lookup]). -/
def accessors (first second : CType) : Bool :=
  (!first.canBeBase || (inherited first second).count first.id == 1) && (!second.canBeBase || (inherited first second).count second.id == 1)

end Verif.Model.Sequences
