/-! # Greatest common divisor and least common multiple of lists -/
namespace Verif.Spec.CoreUtils

/-- the greatest common divisor of two or more arguments -/
def IsGcd (l : List Int) (g : Int) : Prop := 0 ≤ g ∧ (∀ x ∈ l, g ∣ x) ∧ ∀ d, (∀ x ∈ l, d ∣ x) → d ∣ g
/-- the least common multiple of two or more arguments -/
def IsLcm (l : List Int) (g : Int) : Prop := 0 ≤ g ∧ (∀ x ∈ l, x ∣ g) ∧ ∀ m, (∀ x ∈ l, x ∣ m) → g ∣ m

end Verif.Spec.CoreUtils
