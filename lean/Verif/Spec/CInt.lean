/-!
# C++ integer types

An integer type is given by its width and signedness; its values are mathematical integers in a range.
-/
namespace Verif.Spec.CInt

structure Ty where
  bits : Nat
  signed : Bool
  deriving DecidableEq

def Ty.lo (t : Ty) : Int := if t.signed then -(2 ^ (t.bits - 1)) else 0
def Ty.hi (t : Ty) : Int := if t.signed then 2 ^ (t.bits - 1) - 1 else 2 ^ t.bits - 1

/-- `v` is a value of type `t` -/
def Ty.Has (t : Ty) (v : Int) : Prop := t.lo ≤ v ∧ v ≤ t.hi

instance (t : Ty) (v : Int) : Decidable (t.Has v) := inferInstanceAs (Decidable (_ ∧ _))

end Verif.Spec.CInt
