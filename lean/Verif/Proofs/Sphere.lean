import Mathlib.Analysis.Convex.Topology
import Mathlib.LinearAlgebra.Matrix.DotProduct
import Mathlib.MeasureTheory.Measure.Lebesgue.VolumeOfBalls
import Verif.Model.Sphere
import Verif.Proofs.Boxes

/-!
# Lemmas about spheres
-/

namespace Verif.Proofs.Sphere

open Verif.Model.Matrix Verif.Model.Vector Verif.Model.Geometry Verif.Model.Boxes Verif.Model.Sphere
open Verif.Proofs.Vector Verif.Proofs.Transform Verif.Proofs.Geometry Verif.Proofs.Boxes Verif.Spec.Geometry

theorem mem_ball {c : Point} {r : ℝ} (h : 0 ≤ r) (x : Point) : x ∈ ball c r ↔ sqDist x c ≤ r ^ 2 := Real.sqrt_le_left h

theorem contains_iff (s : Sphere) (h : 0 ≤ s.radius) (p : Vec) : contains s p = true ↔ p ∈ ball s.center s.radius := by
  rw [mem_ball h, contains, decide_eq_true_eq, dsq, sqDist_comm, sq]

theorem ball_convex (c : Point) {r : ℝ} (hr : 0 ≤ r) : Convex ℝ (ball c r) := by
  intro x hx y hy a b ha hb hab
  rw [mem_ball hr, sq3] at *
  simp only [Pi.add_apply, Pi.smul_apply, smul_eq_mul]
  have e : ∀ i, a * x i + b * y i - c i = a * (x i - c i) + b * (y i - c i) := fun i => by
    linear_combination c i * hab
  simp only [e]
  generalize x 0 - c 0 = x0 at *
  generalize x 1 - c 1 = x1 at *
  generalize x 2 - c 2 = x2 at *
  generalize y 0 - c 0 = y0 at *
  generalize y 1 - c 1 = y1 at *
  generalize y 2 - c 2 = y2 at *
  have k : (a * x0 + b * y0) ^ 2 + (a * x1 + b * y1) ^ 2 + (a * x2 + b * y2) ^ 2 =
      a * (a + b) * (x0 ^ 2 + x1 ^ 2 + x2 ^ 2) + b * (a + b) * (y0 ^ 2 + y1 ^ 2 + y2 ^ 2)
        - a * b * ((x0 - y0) ^ 2 + (x1 - y1) ^ 2 + (x2 - y2) ^ 2) := by ring
  rw [k, hab]
  have h1 := mul_le_mul_of_nonneg_left hx ha
  have h2 := mul_le_mul_of_nonneg_left hy hb
  have h3 : 0 ≤ a * b * ((x0 - y0) ^ 2 + (x1 - y1) ^ 2 + (x2 - y2) ^ 2) := by positivity
  have h4 : a * r ^ 2 + b * r ^ 2 = r ^ 2 := by rw [← add_mul, hab, one_mul]
  linarith

/-- A unit vector along a displacement. -/
theorem unit_along (v : Point) : ∃ u : Point, UnitVec u ∧ ∀ i, v i = Real.sqrt (v 0 ^ 2 + v 1 ^ 2 + v 2 ^ 2) * u i := by
  by_cases h : v 0 ^ 2 + v 1 ^ 2 + v 2 ^ 2 = 0
  · refine ⟨![1, 0, 0], ?_, fun i => ?_⟩
    · show _ ⬝ᵥ _ = (1 : ℝ); rw [dp3]; simp
    · rw [h, Real.sqrt_zero, zero_mul]
      have h0 := sq_nonneg (v 0)
      have h1 := sq_nonneg (v 1)
      have h2 := sq_nonneg (v 2)
      fin_cases i <;> simp only [Fin.zero_eta, Fin.mk_one, Fin.reduceFinMk] <;>
        exact pow_eq_zero_iff (two_ne_zero) |>.mp (by linarith)
  · have hp : 0 < v 0 ^ 2 + v 1 ^ 2 + v 2 ^ 2 := lt_of_le_of_ne (by positivity) (Ne.symm h)
    have hs := Real.sq_sqrt hp.le
    have hl := Real.sqrt_pos.mpr hp
    generalize Real.sqrt (v 0 ^ 2 + v 1 ^ 2 + v 2 ^ 2) = l at *
    refine ⟨fun i => v i / l, ?_, fun i => by field_simp⟩
    show _ ⬝ᵥ _ = (1 : ℝ)
    rw [dp3]
    field_simp
    linarith

theorem ball_subset {c C : Point} {r R : ℝ} (hr : 0 ≤ r) (hR : 0 ≤ R) (h : ball c r ⊆ ball C R) : eDist c C + r ≤ R := by
  obtain ⟨u, hu, hv⟩ := unit_along (fun i => c i - C i)
  have hu : u 0 * u 0 + u 1 * u 1 + u 2 * u 2 = 1 := by rw [← dp3]; exact hu
  have ed : eDist c C = Real.sqrt ((c 0 - C 0) ^ 2 + (c 1 - C 1) ^ 2 + (c 2 - C 2) ^ 2) := by rw [eDist, sq3]
  rw [← ed] at hv
  have hd : 0 ≤ eDist c C := Real.sqrt_nonneg _
  generalize eDist c C = d at *
  have hx : (fun i => c i + r * u i : Point) ∈ ball c r := by
    rw [mem_ball hr, sq3]
    simp only [add_sub_cancel_left]
    nlinarith
  have := h hx
  rw [mem_ball hR, sq3] at this
  have e : ∀ i, c i + r * u i - C i = (d + r) * u i := fun i => by linear_combination hv i
  simp only [e] at this
  have : (d + r) ^ 2 ≤ R ^ 2 := by nlinarith
  exact le_of_sq_le_sq this hR

theorem sq_eDist (p q : Point) : eDist p q ^ 2 = sqDist p q := Real.sq_sqrt (sqDist_nonneg _ _)

/-! ### the nearest point of a triangle -/

theorem tri_nearest (p0 p1 p2 : Point) : ∃ q ∈ convexHull ℝ {p0, p1, p2}, ∀ x ∈ convexHull ℝ {p0, p1, p2}, sqDist q 0 ≤ sqDist x 0 := by
  have hc : IsCompact (convexHull ℝ {p0, p1, p2} : Set Point) := Set.Finite.isCompact_convexHull (𝕜 := ℝ) (by simp)
  have hn : (convexHull ℝ {p0, p1, p2} : Set Point).Nonempty := ⟨p0, subset_convexHull _ _ (by simp)⟩
  have hf : ContinuousOn (fun x : Point => sqDist x 0) (convexHull ℝ {p0, p1, p2}) := by
    refine Continuous.continuousOn ?_
    unfold sqDist
    fun_prop
  obtain ⟨q, hq, hm⟩ := hc.exists_isMinOn hn hf
  exact ⟨q, hq, fun x hx => hm hx⟩

theorem nearest_variational {S : Set Point} (hS : Convex ℝ S) {q x : Point} (hq : q ∈ S) (hx : x ∈ S)
    (h : ∀ y ∈ S, sqDist q 0 ≤ sqDist y 0) : 0 ≤ q 0 * (x 0 - q 0) + q 1 * (x 1 - q 1) + q 2 * (x 2 - q 2) := by
  by_contra hneg
  push Not at hneg
  have line : ∀ t : ℝ, 0 ≤ t → t ≤ 1 → sqDist q 0 ≤ sqDist (fun i => q i + t * (x i - q i)) 0 := by
    intro t h0 h1
    refine h _ ?_
    have := hS hq hx (by linarith : 0 ≤ 1 - t) h0 (by ring)
    convert this using 1
    funext i
    simp only [Pi.add_apply, Pi.smul_apply, smul_eq_mul]; ring
  simp only [sq3, Pi.zero_apply, sub_zero] at line
  generalize hδ : q 0 * (x 0 - q 0) + q 1 * (x 1 - q 1) + q 2 * (x 2 - q 2) = δ at hneg
  generalize hN : (x 0 - q 0) ^ 2 + (x 1 - q 1) ^ 2 + (x 2 - q 2) ^ 2 = N
  have hN0 : 0 ≤ N := by rw [← hN]; positivity
  have key : ∀ t : ℝ, 0 ≤ t → t ≤ 1 → 0 ≤ 2 * t * δ + t ^ 2 * N := by
    intro t h0 h1
    have := line t h0 h1
    rw [← hδ, ← hN]
    linarith
  rcases le_total N (-δ) with hle | hle
  · have := key 1 (by norm_num) le_rfl
    linarith
  · have hNp : 0 < N := by linarith
    have := key (-δ / N) (div_nonneg (by linarith) hN0) (by rw [div_le_one hNp]; exact hle)
    have e : 2 * (-δ / N) * δ + (-δ / N) ^ 2 * N = -(δ ^ 2 / N) := by field_simp; ring
    rw [e] at this
    have : 0 < δ ^ 2 / N := by have := sq_pos_of_neg hneg; positivity
    linarith

/-! ### the seven separation tests -/

/-- The plane test and, for one rotation of the corners, the vertex test of the first and the edge test of the first two. -/
def Sep1 (a b c : Point) (rr : ℝ) : Prop :=
  (a ⬝ᵥ crossProduct (b - a) (c - a)) ^ 2 > rr * (crossProduct (b - a) (c - a) ⬝ᵥ crossProduct (b - a) (c - a))

def SepV (a b c : Point) (rr : ℝ) : Prop := a ⬝ᵥ a > rr ∧ a ⬝ᵥ b > a ⬝ᵥ a ∧ a ⬝ᵥ c > a ⬝ᵥ a

/-- The edge direction scaled foot of the perpendicular from the origin. -/
def foot (a b : Point) : Point := fun i => a i * ((b - a) ⬝ᵥ (b - a)) - (a ⬝ᵥ b - a ⬝ᵥ a) * (b i - a i)

def SepE (a b c : Point) (rr : ℝ) : Prop :=
  foot a b ⬝ᵥ foot a b > rr * ((b - a) ⬝ᵥ (b - a)) * ((b - a) ⬝ᵥ (b - a)) ∧
    foot a b ⬝ᵥ (fun i => c i * ((b - a) ⬝ᵥ (b - a)) - foot a b i : Point) > 0

theorem cross_comp (a b c : Point) : crossProduct (b - a) (c - a) =
    ![(b 1 - a 1) * (c 2 - a 2) - (b 2 - a 2) * (c 1 - a 1), (b 2 - a 2) * (c 0 - a 0) - (b 0 - a 0) * (c 2 - a 2),
      (b 0 - a 0) * (c 1 - a 1) - (b 1 - a 1) * (c 0 - a 0)] := by
  rw [cross_apply]; rfl

theorem cs (x y : Point) : (x ⬝ᵥ y) ^ 2 ≤ (x ⬝ᵥ x) * (y ⬝ᵥ y) := by
  rw [dp3, dp3, dp3]
  nlinarith [sq_nonneg (x 0 * y 1 - x 1 * y 0), sq_nonneg (x 1 * y 2 - x 2 * y 1), sq_nonneg (x 2 * y 0 - x 0 * y 2)]

theorem self_nonneg (x : Point) : 0 ≤ x ⬝ᵥ x := by rw [dp3]; nlinarith [sq_nonneg (x 0), sq_nonneg (x 1), sq_nonneg (x 2)]

theorem sqDist_zero (x : Point) : sqDist x 0 = x ⬝ᵥ x := by rw [sq3, dp3]; simp only [Pi.zero_apply]; ring

theorem dot_combo {a b c x : Point} {u v w : ℝ} (h : ∀ i, x i = u * a i + v * b i + w * c i) (y : Point) :
    y ⬝ᵥ x = u * (y ⬝ᵥ a) + v * (y ⬝ᵥ b) + w * (y ⬝ᵥ c) := by
  rw [dp3, dp3, dp3, dp3, h 0, h 1, h 2]; ring

/-- Cauchy-Schwarz: if `k` is at least `m > 0` along `y`, then so long is `x`. -/
theorem far_of_dot {x y : Point} {m rr : ℝ} (hm : 0 ≤ m) (h : m ≤ y ⬝ᵥ x) (hr : rr * (y ⬝ᵥ y) < m ^ 2) : rr < x ⬝ᵥ x := by
  have h1 := cs y x
  have h2 : m ^ 2 ≤ (y ⬝ᵥ x) ^ 2 := pow_le_pow_left₀ hm h 2
  by_contra hn
  push Not at hn
  have := mul_le_mul_of_nonneg_left hn (self_nonneg y)
  linarith

theorem sepV_far {a b c x : Point} {rr u v w : ℝ} (hrr : 0 ≤ rr) (hu : 0 ≤ u) (hv : 0 ≤ v) (hw : 0 ≤ w) (h1 : u + v + w = 1)
    (h : ∀ i, x i = u * a i + v * b i + w * c i) (hs : SepV a b c rr) : rr < x ⬝ᵥ x := by
  obtain ⟨s1, s2, s3⟩ := hs
  have hd := dot_combo h a
  refine far_of_dot (y := a) (m := a ⬝ᵥ a) (self_nonneg a) ?_ (by nlinarith)
  rw [hd]
  have k1 := mul_le_mul_of_nonneg_left s2.le hv
  have k2 := mul_le_mul_of_nonneg_left s3.le hw
  have : a ⬝ᵥ a = u * (a ⬝ᵥ a) + v * (a ⬝ᵥ a) + w * (a ⬝ᵥ a) := by rw [← add_mul, ← add_mul, h1, one_mul]
  linarith

theorem foot_dot (a b : Point) : foot a b ⬝ᵥ a = foot a b ⬝ᵥ b ∧
    foot a b ⬝ᵥ foot a b = ((b - a) ⬝ᵥ (b - a)) * (foot a b ⬝ᵥ a) := by
  simp only [dp3, foot, Pi.sub_apply]
  constructor <;> ring

theorem sepE_far {a b c x : Point} {rr u v w : ℝ} (hrr : 0 ≤ rr) (hu : 0 ≤ u) (hv : 0 ≤ v) (hw : 0 ≤ w) (h1 : u + v + w = 1)
    (h : ∀ i, x i = u * a i + v * b i + w * c i) (hs : SepE a b c rr) : rr < x ⬝ᵥ x := by
  obtain ⟨s1, s2⟩ := hs
  obtain ⟨f1, f2⟩ := foot_dot a b
  have hd := dot_combo h (foot a b)
  have hc : foot a b ⬝ᵥ (fun i => c i * ((b - a) ⬝ᵥ (b - a)) - foot a b i : Point) =
      (foot a b ⬝ᵥ c) * ((b - a) ⬝ᵥ (b - a)) - foot a b ⬝ᵥ foot a b := by
    generalize (b - a) ⬝ᵥ (b - a) = e
    rw [dp3, dp3, dp3]; ring
  rw [hc, f2] at s2
  have he := self_nonneg (b - a)
  generalize hE : (b - a) ⬝ᵥ (b - a) = e at *
  rw [f2] at s1
  have hff := self_nonneg (foot a b)
  rw [f2] at hff
  have hepos : 0 < e := by
    rcases eq_or_lt_of_le he with h0 | h0
    · rw [← h0] at s1; simp at s1
    · exact h0
  have hfa : 0 ≤ foot a b ⬝ᵥ a := nonneg_of_mul_nonneg_right hff hepos
  have hca : foot a b ⬝ᵥ a < foot a b ⬝ᵥ c := by
    have : e * (foot a b ⬝ᵥ a) < e * (foot a b ⬝ᵥ c) := by linarith
    exact lt_of_mul_lt_mul_left this he
  refine far_of_dot (y := foot a b) (m := foot a b ⬝ᵥ a) hfa ?_ ?_
  · rw [hd, ← f1]
    have k := mul_le_mul_of_nonneg_left hca.le hw
    have : foot a b ⬝ᵥ a = u * (foot a b ⬝ᵥ a) + v * (foot a b ⬝ᵥ a) + w * (foot a b ⬝ᵥ a) := by
      rw [← add_mul, ← add_mul, h1, one_mul]
    linarith
  · rw [f2]
    have s3 : rr * e < foot a b ⬝ᵥ a := by
      have : (rr * e) * e < (foot a b ⬝ᵥ a) * e := by linarith
      exact lt_of_mul_lt_mul_right this he
    have hpos : 0 < foot a b ⬝ᵥ a := lt_of_le_of_lt (by positivity) s3
    have := mul_lt_mul_of_pos_right s3 hpos
    linarith

theorem sep1_far {a b c x : Point} {rr u v w : ℝ} (h1 : u + v + w = 1)
    (h : ∀ i, x i = u * a i + v * b i + w * c i) (hs : Sep1 a b c rr) : rr < x ⬝ᵥ x := by
  unfold Sep1 at hs
  rw [cross_comp] at hs
  have hd : a ⬝ᵥ (![(b 1 - a 1) * (c 2 - a 2) - (b 2 - a 2) * (c 1 - a 1), (b 2 - a 2) * (c 0 - a 0) - (b 0 - a 0) * (c 2 - a 2),
      (b 0 - a 0) * (c 1 - a 1) - (b 1 - a 1) * (c 0 - a 0)] : Point) = (![(b 1 - a 1) * (c 2 - a 2) - (b 2 - a 2) * (c 1 - a 1), (b 2 - a 2) * (c 0 - a 0) - (b 0 - a 0) * (c 2 - a 2),
      (b 0 - a 0) * (c 1 - a 1) - (b 1 - a 1) * (c 0 - a 0)] : Point) ⬝ᵥ x := by
    have : u = 1 - v - w := by linarith
    subst this
    simp only [dp3, Matrix.cons_val_zero, Matrix.cons_val_one, Matrix.cons_val, h]
    ring
  rw [hd] at hs
  generalize (![(b 1 - a 1) * (c 2 - a 2) - (b 2 - a 2) * (c 1 - a 1), (b 2 - a 2) * (c 0 - a 0) - (b 0 - a 0) * (c 2 - a 2),
      (b 0 - a 0) * (c 1 - a 1) - (b 1 - a 1) * (c 0 - a 0)] : Point) = V at *
  have := cs V x
  by_contra hn
  push Not at hn
  have := mul_le_mul_of_nonneg_left hn (self_nonneg V)
  linarith

/-- Some separation test succeeds. -/
def Sep (a b c : Point) (rr : ℝ) : Prop :=
  Sep1 a b c rr ∨ (SepV a b c rr ∨ SepV b c a rr ∨ SepV c a b rr) ∨ SepE a b c rr ∨ SepE b c a rr ∨ SepE c a b rr

theorem sep_far {a b c x : Point} {rr : ℝ} (hrr : 0 ≤ rr) (hx : x ∈ convexHull ℝ {a, b, c}) (hs : Sep a b c rr) : rr < x ⬝ᵥ x := by
  obtain ⟨u, v, w, hu, hv, hw, h1, h⟩ := (mem_tri _ _ _ _).mp hx
  have r1 : v + w + u = 1 := by linarith
  have r2 : w + u + v = 1 := by linarith
  have g1 : ∀ i, x i = v * b i + w * c i + u * a i := fun i => by rw [h i]; ring
  have g2 : ∀ i, x i = w * c i + u * a i + v * b i := fun i => by rw [h i]; ring
  rcases hs with hs | (hs | hs | hs) | hs | hs | hs
  · exact sep1_far h1 h hs
  · exact sepV_far hrr hu hv hw h1 h hs
  · exact sepV_far hrr hv hw hu r1 g1 hs
  · exact sepV_far hrr hw hu hv r2 g2 hs
  · exact sepE_far hrr hu hv hw h1 h hs
  · exact sepE_far hrr hv hw hu r1 g1 hs
  · exact sepE_far hrr hw hu hv r2 g2 hs

/-- The nearest point is a corner. -/
theorem near_vertex {a b c q : Point} {rr : ℝ} (hq : rr < q ⬝ᵥ q) (h : q = a) (hb : 0 < q ⬝ᵥ (b - q)) (hc : 0 < q ⬝ᵥ (c - q)) :
    SepV a b c rr := by
  subst h
  rw [dotProduct_sub] at hb hc
  exact ⟨hq, by linarith, by linarith⟩

/-- The nearest point is on an edge. -/
theorem near_edge {a b c q : Point} {rr : ℝ} (hq : rr < q ⬝ᵥ q) (hab : a ≠ b) {u v : ℝ} (h1 : u + v = 1)
    (h : ∀ i, q i = u * a i + v * b i) (ha : q ⬝ᵥ (a - q) = 0) (hb : q ⬝ᵥ (b - q) = 0) (hc : 0 < q ⬝ᵥ (c - q)) :
    SepE a b c rr := by
  have he : 0 < (b - a) ⬝ᵥ (b - a) := by
    refine lt_of_le_of_ne (self_nonneg _) fun h0 => hab ?_
    have := (dotProduct_self_eq_zero (v := b - a)).mp h0.symm
    exact (sub_eq_zero.mp this).symm
  rw [dotProduct_sub] at ha hb hc
  have e0 : ∀ i, foot a b i = ((b - a) ⬝ᵥ (b - a)) * q i := by
    have hu : u = 1 - v := by linarith
    subst hu
    have hqa : (q ⬝ᵥ b) - (q ⬝ᵥ a) = 0 := by linarith
    have hd : (a ⬝ᵥ b - a ⬝ᵥ a) + v * ((b - a) ⬝ᵥ (b - a)) = 0 := by
      rw [← hqa]
      simp only [dp3, Pi.sub_apply, h]; ring
    intro i
    unfold foot
    rw [h i]
    linear_combination (-(b i - a i)) * hd
  have ef : foot a b = fun i => ((b - a) ⬝ᵥ (b - a)) * q i := funext e0
  unfold SepE
  rw [ef]
  generalize (b - a) ⬝ᵥ (b - a) = e at *
  constructor
  · have k : (fun i => e * q i : Point) ⬝ᵥ (fun i => e * q i : Point) = (q ⬝ᵥ q) * e * e := by rw [dp3, dp3]; ring
    rw [k]
    have := mul_pos he he
    nlinarith
  · have k : (fun i => e * q i : Point) ⬝ᵥ (fun i => c i * e - e * q i : Point) = e * e * (q ⬝ᵥ c - q ⬝ᵥ q) := by
      rw [dp3, dp3, dp3]; ring
    rw [k]
    exact mul_pos (mul_pos he he) hc

/-- The nearest point is the foot of the perpendicular to the plane. -/
theorem near_face {a b c q : Point} {rr : ℝ} (hq : rr < q ⬝ᵥ q) (hp : Proper a b c) (ha : q ⬝ᵥ (a - q) = 0) (hb : q ⬝ᵥ (b - q) = 0)
    (hc : q ⬝ᵥ (c - q) = 0) {u v w : ℝ} (h1 : u + v + w = 1) (h : ∀ i, q i = u * a i + v * b i + w * c i) : Sep1 a b c rr := by
  have hpos := proper_pos hp
  rw [dotProduct_sub] at ha hb hc
  unfold Sep1
  rw [cross_comp]
  have hab : q 0 * (b 0 - a 0) + q 1 * (b 1 - a 1) + q 2 * (b 2 - a 2) = 0 := by
    rw [dp3, dp3] at ha hb; linarith
  have hac : q 0 * (c 0 - a 0) + q 1 * (c 1 - a 1) + q 2 * (c 2 - a 2) = 0 := by
    rw [dp3, dp3] at ha hc; linarith
  have hu : u = 1 - v - w := by linarith
  subst hu
  have hd : a 0 * ((b 1 - a 1) * (c 2 - a 2) - (b 2 - a 2) * (c 1 - a 1)) + a 1 * ((b 2 - a 2) * (c 0 - a 0) - (b 0 - a 0) * (c 2 - a 2))
      + a 2 * ((b 0 - a 0) * (c 1 - a 1) - (b 1 - a 1) * (c 0 - a 0)) =
      q 0 * ((b 1 - a 1) * (c 2 - a 2) - (b 2 - a 2) * (c 1 - a 1)) + q 1 * ((b 2 - a 2) * (c 0 - a 0) - (b 0 - a 0) * (c 2 - a 2))
      + q 2 * ((b 0 - a 0) * (c 1 - a 1) - (b 1 - a 1) * (c 0 - a 0)) := by
    simp only [h]; ring
  simp only [dp3, Matrix.cons_val_zero, Matrix.cons_val_one, Matrix.cons_val] at hq ⊢
  rw [hd]
  generalize b 0 - a 0 = x0 at *
  generalize b 1 - a 1 = x1 at *
  generalize b 2 - a 2 = x2 at *
  generalize c 0 - a 0 = y0 at *
  generalize c 1 - a 1 = y1 at *
  generalize c 2 - a 2 = y2 at *
  -- q × (x × y) = x (q·y) - y (q·x) = 0
  have k0 : q 1 * (x0 * y1 - x1 * y0) - q 2 * (x2 * y0 - x0 * y2) = 0 := by linear_combination x0 * hac - y0 * hab
  have k1 : q 2 * (x1 * y2 - x2 * y1) - q 0 * (x0 * y1 - x1 * y0) = 0 := by linear_combination x1 * hac - y1 * hab
  have k2 : q 0 * (x2 * y0 - x0 * y2) - q 1 * (x1 * y2 - x2 * y1) = 0 := by linear_combination x2 * hac - y2 * hab
  generalize x1 * y2 - x2 * y1 = V0 at *
  generalize x2 * y0 - x0 * y2 = V1 at *
  generalize x0 * y1 - x1 * y0 = V2 at *
  have lag : (q 0 * V0 + q 1 * V1 + q 2 * V2) ^ 2 = (q 0 * q 0 + q 1 * q 1 + q 2 * q 2) * (V0 * V0 + V1 * V1 + V2 * V2) := by
    linear_combination (-(q 1 * V2 - q 2 * V1)) * k0 - (q 2 * V0 - q 0 * V2) * k1 - (q 0 * V1 - q 1 * V0) * k2
  rw [lag]
  have : 0 < V0 * V0 + V1 * V1 + V2 * V2 := by linarith
  exact mul_lt_mul_of_pos_right hq this

theorem proper_ne {a b c : Point} (h : Proper a b c) : a ≠ b ∧ b ≠ c ∧ c ≠ a := by
  have hp := proper_pos h
  refine ⟨?_, ?_, ?_⟩ <;> rintro rfl <;> ring_nf at hp <;> exact absurd hp (lt_irrefl _)

theorem not_sep_meets {a b c : Point} {rr : ℝ} (hp : Proper a b c) (hs : ¬ Sep a b c rr) :
    ∃ x ∈ convexHull ℝ {a, b, c}, x ⬝ᵥ x ≤ rr := by
  by_contra hn
  push Not at hn
  obtain ⟨q, hq, hmin⟩ := tri_nearest a b c
  have hfar := hn q hq
  have hvar : ∀ x ∈ convexHull ℝ {a, b, c}, 0 ≤ q ⬝ᵥ (x - q) := by
    intro x hx
    have := nearest_variational (convex_convexHull ℝ _) hq hx hmin
    rw [dp3]; exact this
  have la := hvar a (subset_convexHull _ _ (by simp))
  have lb := hvar b (subset_convexHull _ _ (by simp))
  have lc := hvar c (subset_convexHull _ _ (by simp))
  obtain ⟨u, v, w, hu, hv, hw, h1, h⟩ := (mem_tri _ _ _ _).mp hq
  have hsum : u * (q ⬝ᵥ (a - q)) + v * (q ⬝ᵥ (b - q)) + w * (q ⬝ᵥ (c - q)) = 0 := by
    have := dot_combo h q
    rw [dotProduct_sub, dotProduct_sub, dotProduct_sub]
    linear_combination (-1) * this + (-(q ⬝ᵥ q)) * h1
  have pu := mul_nonneg hu la
  have pv := mul_nonneg hv lb
  have pw := mul_nonneg hw lc
  have zu : u * (q ⬝ᵥ (a - q)) = 0 := by linarith
  have zv : v * (q ⬝ᵥ (b - q)) = 0 := by linarith
  have zw : w * (q ⬝ᵥ (c - q)) = 0 := by linarith
  obtain ⟨nab, nbc, nca⟩ := proper_ne hp
  have zero : ∀ {k l : ℝ}, k * l = 0 → 0 < l → k = 0 := fun h h0 => (mul_eq_zero.mp h).resolve_right h0.ne'
  apply hs
  rcases eq_or_lt_of_le la with ea | ea <;> rcases eq_or_lt_of_le lb with eb | eb <;> rcases eq_or_lt_of_le lc with ec | ec
  · exact Or.inl (near_face hfar hp ea.symm eb.symm ec.symm h1 h)
  · have w0 := zero zw ec
    subst w0
    exact Or.inr (Or.inr (Or.inl (near_edge (u := u) (v := v) hfar nab (by linarith) (fun i => by rw [h i]; ring) ea.symm eb.symm ec)))
  · have v0 := zero zv eb
    subst v0
    exact Or.inr (Or.inr (Or.inr (Or.inr (near_edge (u := w) (v := u) hfar nca (by linarith) (fun i => by rw [h i]; ring) ec.symm ea.symm eb))))
  · have v0 := zero zv eb
    have w0 := zero zw ec
    subst v0 w0
    have u1 : u = 1 := by linarith
    subst u1
    exact Or.inr (Or.inl (Or.inl (near_vertex hfar (funext fun i => by rw [h i]; ring) eb ec)))
  · have u0 := zero zu ea
    subst u0
    exact Or.inr (Or.inr (Or.inr (Or.inl (near_edge (u := v) (v := w) hfar nbc (by linarith) (fun i => by rw [h i]; ring) eb.symm ec.symm ea))))
  · have u0 := zero zu ea
    have w0 := zero zw ec
    subst u0 w0
    have v1 : v = 1 := by linarith
    subst v1
    exact Or.inr (Or.inl (Or.inr (Or.inl (near_vertex hfar (funext fun i => by rw [h i]; ring) ec ea))))
  · have u0 := zero zu ea
    have v0 := zero zv eb
    subst u0 v0
    have w1 : w = 1 := by linarith
    subst w1
    exact Or.inr (Or.inl (Or.inr (Or.inr (near_vertex hfar (funext fun i => by rw [h i]; ring) ea eb))))
  · have u0 := zero zu ea
    have v0 := zero zv eb
    have w0 := zero zw ec
    linarith

theorem intersectsTri_sep (s : Sphere) (p0 p1 p2 : Vec) : intersectsTri s p0 p1 p2 = true ↔
    ¬ Sep (fun i => p0 i - s.center i) (fun i => p1 i - s.center i) (fun i => p2 i - s.center i) (s.radius ^ 2) := by
  unfold intersectsTri
  generalize (fun i => p0 i - s.center i : Vec) = a
  generalize (fun i => p1 i - s.center i : Vec) = b
  generalize (fun i => p2 i - s.center i : Vec) = c
  have hv : cross (fun i => b i - a i) (fun i => c i - a i) = crossProduct (b - a) (c - a) := by rw [cross_eq]; rfl
  have e1 : (fun i => b i - a i : Vec) = b - a := rfl
  have e2 : (fun i => c i - b i : Vec) = c - b := rfl
  have e3 : (fun i => a i - c i : Vec) = a - c := rfl
  have c1 : c ⬝ᵥ a = a ⬝ᵥ c := dotProduct_comm _ _
  have c2 : b ⬝ᵥ a = a ⬝ᵥ b := dotProduct_comm _ _
  have c3 : c ⬝ᵥ b = b ⬝ᵥ c := dotProduct_comm _ _
  simp only [hv]
  simp only [dot_dp, e1, e2, e3]
  unfold Sep Sep1 SepV SepE foot
  simp only [c1, c2, c3, ← sq]
  split_ifs with h1 h2 h3
  · simp only [false_iff, not_not]; exact Or.inl h1
  · simp only [false_iff, not_not]
    simp only [Bool.or_eq_true, Bool.and_eq_true, decide_eq_true_eq] at h2
    right; left; tauto
  · simp only [false_iff, not_not]
    simp only [Bool.or_eq_true, Bool.and_eq_true, decide_eq_true_eq] at h3
    right; right; tauto
  · simp only [true_iff]
    simp only [Bool.or_eq_true, Bool.and_eq_true, decide_eq_true_eq] at h2 h3
    rintro (h | (h | h | h) | h | h | h)
    · exact h1 h
    · exact h2 (Or.inl (Or.inl ⟨⟨h.1, h.2.1⟩, h.2.2⟩))
    · exact h2 (Or.inl (Or.inr ⟨⟨h.1, h.2.2⟩, h.2.1⟩))
    · exact h2 (Or.inr ⟨⟨h.1, h.2.1⟩, h.2.2⟩)
    · exact h3 (Or.inl (Or.inl h))
    · exact h3 (Or.inl (Or.inr h))
    · exact h3 (Or.inr h)

end Verif.Proofs.Sphere
