import Verif.Spec.FloatFormat
/-!
# Numbers that are close to one another
-/
namespace Verif.Spec.Closeness
open Verif.Spec.IeeeArith Verif.Spec.FloatFormat

/-- `x` and `y` are finite and differ by less than `eps`, which may be infinite. -/
def Close (eps x y : Number) : Prop :=
  ∃ X Y, value x = some X ∧ value y = some Y ∧ (eps = .inf false ∨ ∃ E, value eps = some E ∧ |Y - X| < E)

/-- `x` and `y` are finite and differ by less than `eps` even if the difference is made larger by the relative amount `margin`. -/
def Clear (margin : ℚ) (eps x y : Number) : Prop :=
  ∃ X Y E, value x = some X ∧ value y = some Y ∧ value eps = some E ∧ |Y - X| * (1 + margin) < E

/-- `half` -/
def binary16 : Format := ⟨11, -14, 65504⟩

/-- Every number of the format `f` is one of the format `g`. -/
def Within (f g : Format) : Prop := f.p ≤ g.p ∧ g.emin - g.p ≤ f.emin - f.p ∧ f.greatest ≤ g.greatest

/-- `x` is not negative (and is a number). -/
def NonNegative : Number → Prop
  | .nan => False
  | .inf s => s = false
  | .fin s a => 0 ≤ signed s a

end Verif.Spec.Closeness
