import Verif.Spec.TriangleRounding
/-!
# Oriented boxes: what they are, and how much rounding can hide

`R` bounds the coordinates of the centre and of the points, `S` the components of the axes, `L` the extents.
-/
namespace Verif.Spec.ObbRounding
open Verif.Spec.IeeeArith Verif.Spec.FloatFormat

/-- How far `X` goes in the direction `A`, times the length of `A`. -/
def along (A X : Fin 3 → ℚ) : ℚ := ∑ i, X i * A i

/-- The axes have length one and are at right angles. -/
def Orthonormal (A : Fin 3 → Fin 3 → ℚ) : Prop := ∀ i j, along (A i) (A j) = if i = j then 1 else 0

/-- The axes have length one and are at right angles, but for `ω`. (Of axes of binary floating-point numbers, only those along the coordinate axes are exact.) -/
def Nearly (ω : ℚ) (A : Fin 3 → Fin 3 → ℚ) : Prop := ∀ i j, |along (A i) (A j) - (if i = j then 1 else 0)| ≤ ω

/-- The point that is `T j` along each axis from the centre. -/
def reached (C : Fin 3 → ℚ) (A : Fin 3 → Fin 3 → ℚ) (T : Fin 3 → ℚ) : Fin 3 → ℚ := fun i => C i + ∑ j, T j * A j i

/-- `P` is in the box with the centre `C`, the axes `A` and the extents `E`. -/
def InBox (C : Fin 3 → ℚ) (A : Fin 3 → Fin 3 → ℚ) (E P : Fin 3 → ℚ) : Prop := ∃ T, (∀ j, |T j| ≤ E j) ∧ P = reached C A T

/-- `P` is between the pairs of planes that the sides of the box are in. -/
def Between (C : Fin 3 → ℚ) (A : Fin 3 → Fin 3 → ℚ) (E P : Fin 3 → ℚ) : Prop := ∀ j, |along (A j) (P - C)| ≤ E j

/-- The point of the box that is nearest to `P`, if the axes are orthonormal. -/
def nearest (C : Fin 3 → ℚ) (A : Fin 3 → Fin 3 → ℚ) (E P : Fin 3 → ℚ) : Fin 3 → ℚ := reached C A fun j => max (-E j) (min (E j) (along (A j) (P - C)))

/-- The square of the distance of two points. -/
def apart (P Q : Fin 3 → ℚ) : ℚ := ∑ i, (P i - Q i) ^ 2

/-- What rounding can change of how far a point is along an axis. -/
def slack (f : Format) (R S : ℚ) : ℚ := ((1 + f.u) ^ 4 - 1) * (6 * R * S) + (1 + f.u) ^ 4 * ((3 * S + 5) * f.tiny)

/-- The largest that it can be as computed. -/
def most (f : Format) (R S : ℚ) : ℚ := (1 + f.u) ^ 4 * (6 * R * S + (3 * S + 5) * f.tiny)

/-- What rounding can change of the coordinates of the nearest point. -/
def nearestSlack (f : Format) (R S : ℚ) : ℚ := ((1 + f.u) ^ 8 - 1) * (R + 18 * R * S ^ 2) + (1 + f.u) ^ 8 * ((9 * S ^ 2 + 15 * S + 6) * f.tiny)

/-- The largest that they can be as computed. -/
def nearestMost (f : Format) (R S : ℚ) : ℚ := (1 + f.u) ^ 8 * (R + 18 * R * S ^ 2 + (9 * S ^ 2 + 15 * S + 6) * f.tiny)

/-- What rounding can change of the coordinates of a corner. -/
def cornerSlack (f : Format) (R S L : ℚ) : ℚ := ((1 + f.u) ^ 4 - 1) * (R + 3 * S * L) + (1 + f.u) ^ 4 * (6 * f.tiny)

/-- The largest that they can be as computed. -/
def cornerMost (f : Format) (R S L : ℚ) : ℚ := (1 + f.u) ^ 4 * (R + 3 * S * L + 6 * f.tiny)

end Verif.Spec.ObbRounding
