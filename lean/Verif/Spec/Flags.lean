import Verif.Spec.CInt
import Mathlib.Data.Nat.Notation
/-!
# Sets of flags

A number is read as the set of the positions at which its binary (two's complement) representation has a one.
-/
namespace Verif.Spec.Flags

/-- Flag `i` is set in `v`. -/
def Bit (v : Int) (i : ℕ) : Prop := v / 2 ^ i % 2 = 1

end Verif.Spec.Flags
