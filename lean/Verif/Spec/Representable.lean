import Verif.Spec.FloatFormat
/-!
# Rational numbers that a format has
-/
namespace Verif.Spec.Representable
open Verif.Spec.IeeeArith Verif.Spec.FloatFormat

/-- The format has the number `q`. -/
def Representable (f : Format) (q : ℚ) : Prop := ∃ x, f.Has x ∧ value x = some q

/-- The numbers `l` are finite, and are the rational numbers `q`. -/
def Are (l : List Number) (q : List ℚ) : Prop := l.map value = q.map some

instance (l : List Number) (q : List ℚ) : Decidable (Are l q) := inferInstanceAs (Decidable (_ = _))

end Verif.Spec.Representable
