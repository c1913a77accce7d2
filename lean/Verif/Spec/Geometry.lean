import Mathlib.Analysis.Convex.Segment
import Mathlib.Analysis.Convex.Hull
import Mathlib.Analysis.Real.Sqrt
import Mathlib.Data.Matrix.Mul
import Mathlib.LinearAlgebra.CrossProduct

/-!
# Specification of the geometry: points, and the sets of points the shapes stand for

Points are triples of real numbers.  A line segment is Mathlib's `segment ℝ a b`, a triangle is
`convexHull ℝ {a, b, c}`; the other shapes are defined here.
-/

namespace Verif.Spec.Geometry

open Matrix

/-- A point of space. -/
abbrev Point := Fin 3 → ℝ

/-- The square of the Euclidean distance. -/
def sqDist (p q : Point) : ℝ := ∑ i, (p i - q i) ^ 2

/-- The Euclidean distance. -/
noncomputable def eDist (p q : Point) : ℝ := Real.sqrt (sqDist p q)

/-- The plane with normal `n` and offset `d`: the points `x` with `n · x + d = 0`. -/
def planeSet (n : Point) (d : ℝ) : Set Point := {x | n ⬝ᵥ x + d = 0}

/-- The solid ball. -/
def ball (c : Point) (r : ℝ) : Set Point := {x | eDist x c ≤ r}

/-- The axis-aligned box with centre `c` and half-sides `e`. -/
def box (c e : Point) : Set Point := {x | ∀ i, |x i - c i| ≤ e i}

/-- The box with centre `c`, half-sides `e` and sides along the vectors `u 0`, `u 1`, `u 2`. -/
def orientedBox (c e : Point) (u : Fin 3 → Point) : Set Point :=
  {x | ∃ t : Fin 3 → ℝ, (∀ i, |t i| ≤ e i) ∧ x = c + ∑ i, t i • u i}

/-- The half-line from `o` in the direction `v`. -/
def rayFrom (o v : Point) : Set Point := {x | ∃ t : ℝ, 0 ≤ t ∧ x = o + t • v}

/-- The line through `o` in the direction `v`. -/
def lineThrough (o v : Point) : Set Point := {x | ∃ t : ℝ, x = o + t • v}

/-- The two sets share a point. -/
def Meets (A B : Set Point) : Prop := ∃ x, x ∈ A ∧ x ∈ B

/-- `q` is a point of `S`, and no point of `S` is nearer to `p`. -/
def Nearest (S : Set Point) (p q : Point) : Prop := q ∈ S ∧ ∀ x ∈ S, eDist p q ≤ eDist p x

/-- A unit vector. -/
def UnitVec (v : Point) : Prop := v ⬝ᵥ v = 1

/-- The three corners do not lie on one line: the two edge vectors are not parallel. -/
def Proper (p0 p1 p2 : Point) : Prop := crossProduct (p1 - p0) (p2 - p0) ≠ 0

/-- The plane through three points. -/
def triPlane (p0 p1 p2 : Point) : Set Point := {y | crossProduct (p1 - p0) (p2 - p0) ⬝ᵥ (y - p0) = 0}

end Verif.Spec.Geometry
