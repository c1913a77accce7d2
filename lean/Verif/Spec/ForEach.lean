/-! What a parallel for loop over an index range visits. -/
namespace Verif.Spec.ForEach

/-- the value of a `w`-bit integer of a signed or an unsigned type -/
def val {w : Nat} (signed : Bool) (x : BitVec w) : Int := if signed then x.toInt else x.toNat

/-- `lo, lo + 1, …` (`n` numbers) -/
def upFrom (lo : Int) (n : Nat) : List Int := (List.range n).map fun (i : Nat) => lo + (i : Int)

/-- the indices of the range from `start` (included) to `stop` (excluded), in ascending order, also when the range
    is a descending one -/
def indices (start stop : Int) : List Int :=
  if start ≤ stop then upFrom start (stop - start).toNat else upFrom (stop + 1) (start - stop).toNat

example : indices 3 6 = [3, 4, 5] := by decide
example : indices 6 3 = [4, 5, 6] := by decide

end Verif.Spec.ForEach
