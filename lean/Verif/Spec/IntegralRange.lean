import Verif.Spec.CInt
/-! # Half-open ranges of integers -/
namespace Verif.Spec.IntegralRange

/-- the integers from `s` up to, not including, `e` -/
structure Range where
  s : Int
  e : Int

/-- `x` is in the range -/
def Range.Mem (r : Range) (x : Int) : Prop := r.s ≤ x ∧ x < r.e

/-- the integers of the range in increasing order -/
def Range.toList (r : Range) : List Int := (List.range (r.e - r.s).toNat).map (fun i : Nat => r.s + (i : Int))

end Verif.Spec.IntegralRange
