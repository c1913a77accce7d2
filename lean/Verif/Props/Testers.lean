import Verif.Model.Testers
import Verif.Props.Sphere

/-!
# C134: collision testers

Exact arithmetic.
-/

namespace Verif.Props.Testers

open Verif.Model.Vector Verif.Model.Geometry Verif.Model.Boxes Verif.Model.Sphere Verif.Model.Testers
open Verif.Proofs.Boxes Verif.Spec.Geometry Verif.Props.Boxes Verif.Props.Sphere

theorem tri_same (b : Box) (p0 p1 p2 : Vec) : (boxTester b).tri p0 p1 p2 = b.intersectsTri p0 p1 p2 := by
  have hmin : b.minCorner = fun i => b.center i - b.extents i := funext (minCorner_eq b)
  have hmax : b.maxCorner = fun i => b.center i + b.extents i := funext (maxCorner_eq b)
  have e : ∀ axis, satOfArray axis (boxTester b).corners = satOf axis b.minCorner (cornersMinMax b.minCorner b.maxCorner) :=
    fun axis => rfl
  rw [Box.intersectsTri, ← hmin, ← hmax]
  unfold BoxTester.tri intersectsTriMinMax moller2 moller3 akenineMoller2 akenineMoller3
  simp only [e]
  rfl

/-- C134: a tester made from a box tells of a point whether it is in the box, and of another box, a sphere, a triangle or a
tester made from one whether they share a point.  (The corners of the triangle are not collinear; see C101.) -/
theorem C134_box (b : Box) (hb : Valid b) :
    (∀ p, (boxTester b).point p = true ↔ p ∈ region b) ∧
    (∀ c, Valid c → ((boxTester b).boxTest c = true ↔ Meets (region b) (region c)) ∧
      ((boxTester b).boxTester (boxTester c) = true ↔ Meets (region b) (region c))) ∧
    (∀ s : Sphere, 0 ≤ s.radius → ((boxTester b).sphere s = true ↔ Meets (region b) (ball s.center s.radius)) ∧
      ((boxTester b).sphereTester (sphereTester s) = true ↔ Meets (region b) (ball s.center s.radius))) ∧
    ∀ p0 p1 p2, Proper p0 p1 p2 →
      ((boxTester b).tri p0 p1 p2 = true ↔ Meets (region b) (convexHull ℝ {p0, p1, p2})) ∧
      ((boxTester b).triTester (triTester p0 p1 p2) = true ↔ Meets (region b) (convexHull ℝ {p0, p1, p2})) := by
  have hmin : b.minCorner = fun i => b.center i - b.extents i := funext (minCorner_eq b)
  have hmax : b.maxCorner = fun i => b.center i + b.extents i := funext (maxCorner_eq b)
  refine ⟨C98_contains b, fun c hc => ⟨C99_box b c hb hc, C99_box b c hb hc⟩, fun s hs => ?_, fun p0 p1 p2 hp => ?_⟩
  · have := C99_sphere b hb s hs
    rw [Box.intersectsSphere, ← hmin, ← hmax] at this
    exact ⟨this, this⟩
  · have h := C101_triangle_partial b hb p0 p1 p2 hp
    rw [← tri_same] at h
    exact ⟨h, h⟩

example : Valid sample ∧ (0 : ℝ) ≤ sampleS.radius ∧ Proper ![0, 0, 0] ![4, 0, 0] ![0, 4, 0] := by
  refine ⟨sample_valid, sampleS_valid, ?_⟩
  rw [Verif.Proofs.Geometry.proper_iff]; intro h; have := congrFun h 2; simp [cross] at this

/-- C134: a tester made from a sphere tells of a box, or of a tester made from one, whether they share a point. -/
theorem C134_sphere_box (s : Sphere) (hs : 0 ≤ s.radius) (b : Box) (hb : Valid b) :
    ((sphereTester s).box b = true ↔ Meets (region b) (ball s.center s.radius)) ∧
    ((sphereTester s).boxTester (boxTester b) = true ↔ Meets (region b) (ball s.center s.radius)) := by
  have h := ((C134_box b hb).2.2.1 s hs).1
  exact ⟨h, h⟩

/-- C134 (partial): of another sphere, or of a tester made from one, a tester made from a sphere never wrongly says that they
share a point.  Missing: it can fail to see a common point, because it compares with the sum of the squares of the radii. -/
theorem C134_sphere_partial (s t : Sphere) (hs : 0 ≤ s.radius) (ht : 0 ≤ t.radius) :
    ((sphereTester s).sphere t = true → Meets (ball s.center s.radius) (ball t.center t.radius)) ∧
    ((sphereTester s).sphereTester (sphereTester t) = true → Meets (ball s.center s.radius) (ball t.center t.radius)) := by
  have h := C102_intersects_partial s t hs ht
  exact ⟨h, h⟩

/-- C134 is false of the code for two spheres: they overlap and both forms of the tester say that they do not. -/
theorem C134_sphere_violated : ∃ s t : Sphere, 0 < s.radius ∧ 0 < t.radius ∧ (sphereTester s).sphere t = false ∧
    (sphereTester s).sphereTester (sphereTester t) = false ∧
    ∃ x, eDist x s.center < s.radius ∧ eDist x t.center < t.radius := by
  obtain ⟨a, b, ha, hb, h, x⟩ := C102_intersects_violated
  exact ⟨a, b, ha, hb, h, h, x⟩

end Verif.Props.Testers
