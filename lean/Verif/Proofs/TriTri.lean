import Verif.Model.TriTri
import Verif.Spec.Triangles
import Verif.Proofs.Geometry
import Verif.Proofs.TriTri2D

/-! # Proofs about the intersection of two triangles -/

namespace Verif.Proofs.TriTri

open Verif.Model.Vector Verif.Model.Geometry Verif.Model.TriTri Verif.Spec.Geometry Verif.Spec.Triangles
open Verif.Proofs.Geometry Verif.Proofs.Vector

/-! ### signed volumes -/

theorem normal3 (v0 v1 v2 : Vec) :
    normal v0 v1 v2 0 = (v1 1 - v0 1) * (v2 2 - v0 2) - (v1 2 - v0 2) * (v2 1 - v0 1) ∧
    normal v0 v1 v2 1 = (v1 2 - v0 2) * (v2 0 - v0 0) - (v1 0 - v0 0) * (v2 2 - v0 2) ∧
    normal v0 v1 v2 2 = (v1 0 - v0 0) * (v2 1 - v0 1) - (v1 1 - v0 1) * (v2 0 - v0 0) := cross3 _ _

theorem tetra_eq (v0 v1 v2 x : Vec) : tetra v0 v1 v2 x = normal v0 v1 v2 0 * (x 0 - v0 0)
    + normal v0 v1 v2 1 * (x 1 - v0 1) + normal v0 v1 v2 2 * (x 2 - v0 2) := by
  unfold tetra
  rw [← cross_eq, dp3]
  rfl

theorem tetra_plane (v0 v1 v2 x : Vec) : x ∈ triPlane v0 v1 v2 ↔ tetra v0 v1 v2 x = 0 := Iff.rfl

theorem side_eq {eps : ℝ} {v0 v1 v2 u : Vec} (h : tetra v0 v1 v2 u = 0 ∨ eps ≤ |tetra v0 v1 v2 u|) :
    side eps (normal v0 v1 v2) v0 u = tetra v0 v1 v2 u := by
  have e : dot (normal v0 v1 v2) u + -dot (normal v0 v1 v2) v0 = tetra v0 v1 v2 u := by
    rw [tetra_eq, dot_dp, dot_dp, dp3, dp3]; ring
  rw [side, e, snap]
  rcases h with h | h
  · rw [h]; split <;> rfl
  · rw [if_neg (not_lt.mpr h)]

theorem tetra_comb (v0 v1 v2 p q r x : Vec) {a b c : ℝ} (hs : a + b + c = 1)
    (h : ∀ i, x i = a * p i + b * q i + c * r i) :
    tetra v0 v1 v2 x = a * tetra v0 v1 v2 p + b * tetra v0 v1 v2 q + c * tetra v0 v1 v2 r := by
  simp only [tetra_eq, h]
  linear_combination (-(normal v0 v1 v2 0 * v0 0) - normal v0 v1 v2 1 * v0 1 - normal v0 v1 v2 2 * v0 2) * (-hs)

theorem tetra_self (v0 v1 v2 : Vec) : tetra v0 v1 v2 v0 = 0 ∧ tetra v0 v1 v2 v1 = 0 ∧ tetra v0 v1 v2 v2 = 0 := by
  simp only [tetra_eq, normal3]
  refine ⟨by ring, by ring, by ring⟩

/-! ### the section of a triangle by a plane -/

/-- The first corner is on one side (or in the plane), the others on the other side (or in the plane), not all in the
plane. -/
def Pivot (dp dq dr : ℝ) : Prop :=
  (0 < dp ∧ dq ≤ 0 ∧ dr ≤ 0) ∨ (dp < 0 ∧ 0 ≤ dq ∧ 0 ≤ dr) ∨ (dp = 0 ∧ 0 < dq ∧ 0 < dr) ∨ (dp = 0 ∧ dq < 0 ∧ dr < 0)

theorem pivot_ne {dp dq dr : ℝ} (h : Pivot dp dq dr) : dp - dq ≠ 0 ∧ dp - dr ≠ 0 ∧ 0 < (dp - dq) * (dp - dr) := by
  rcases h with ⟨a, b, c⟩ | ⟨a, b, c⟩ | ⟨a, b, c⟩ | ⟨a, b, c⟩
  · exact ⟨by linarith, by linarith, mul_pos (by linarith) (by linarith)⟩
  · exact ⟨by linarith, by linarith, mul_pos_of_neg_of_neg (by linarith) (by linarith)⟩
  · exact ⟨by linarith, by linarith, mul_pos_of_neg_of_neg (by linarith) (by linarith)⟩
  · exact ⟨by linarith, by linarith, mul_pos (by linarith) (by linarith)⟩

/-- The points of the triangle at height zero. -/
def SecW (p q r : Vec) (dp dq dr : ℝ) (x : Vec) : Prop :=
  ∃ a b c : ℝ, 0 ≤ a ∧ 0 ≤ b ∧ 0 ≤ c ∧ a + b + c = 1 ∧ a * dp + b * dq + c * dr = 0 ∧
    ∀ i, x i = a * p i + b * q i + c * r i

theorem secW_swap {p q r x : Vec} {dp dq dr : ℝ} : SecW p q r dp dq dr x ↔ SecW q p r dq dp dr x := by
  constructor <;> rintro ⟨a, b, c, ha, hb, hc, hs, hd, h⟩ <;>
    exact ⟨b, a, c, hb, ha, hc, by linarith, by linarith, fun i => by rw [h i]; ring⟩

theorem secW_rot {p q r x : Vec} {dp dq dr : ℝ} : SecW p q r dp dq dr x ↔ SecW r p q dr dp dq x := by
  constructor
  · rintro ⟨a, b, c, ha, hb, hc, hs, hd, h⟩
    exact ⟨c, a, b, hc, ha, hb, by linarith, by linarith, fun i => by rw [h i]; ring⟩
  · rintro ⟨a, b, c, ha, hb, hc, hs, hd, h⟩
    exact ⟨b, c, a, hb, hc, ha, by linarith, by linarith, fun i => by rw [h i]; ring⟩

/-- The point with parameter `t` between two points. -/
def Btw (e f : Vec) (x : Vec) : Prop := ∃ t, 0 ≤ t ∧ t ≤ 1 ∧ ∀ i, x i = e i + t * (f i - e i)

theorem section_iff {p q r x : Vec} {dp dq dr : ℝ} (hp : Pivot dp dq dr) :
    SecW p q r dp dq dr x ↔
      Btw (fun i => dp / (dp - dq) * (q i - p i) + p i) (fun i => p i + dp / (dp - dr) * (r i - p i)) x := by
  obtain ⟨n1, n2, -⟩ := pivot_ne hp
  constructor
  · rintro ⟨a, b, c, ha, hb, hc, hs, hd, h⟩
    by_cases h0 : dp = 0
    · -- only the corner itself
      have hbc : b = 0 ∧ c = 0 := by
        rw [h0] at hd
        rcases hp with ⟨x, y, z⟩ | ⟨x, y, z⟩ | ⟨-, y, z⟩ | ⟨-, y, z⟩
        · linarith
        · linarith
        · have := mul_nonneg hb y.le
          have := mul_nonneg hc z.le
          exact ⟨(mul_eq_zero.mp (by linarith : b * dq = 0)).resolve_right y.ne',
            (mul_eq_zero.mp (by linarith : c * dr = 0)).resolve_right z.ne'⟩
        · have := mul_nonneg hb (neg_nonneg.mpr y.le)
          have := mul_nonneg hc (neg_nonneg.mpr z.le)
          exact ⟨(mul_eq_zero.mp (by linarith : b * dq = 0)).resolve_right y.ne,
            (mul_eq_zero.mp (by linarith : c * dr = 0)).resolve_right z.ne⟩
      refine ⟨0, le_rfl, zero_le_one, fun i => ?_⟩
      rw [h i, hbc.1, hbc.2, h0]
      have : a = 1 := by linarith [hbc.1, hbc.2]
      rw [this]; ring
    · have hk : 0 ≤ (dp - dq) / dp ∧ 0 ≤ (dp - dr) / dp := by
        rcases hp with ⟨x, y, z⟩ | ⟨x, y, z⟩ | ⟨x, -⟩ | ⟨x, -⟩
        · exact ⟨div_nonneg (by linarith) x.le, div_nonneg (by linarith) x.le⟩
        · exact ⟨div_nonneg_of_nonpos (by linarith) x.le, div_nonneg_of_nonpos (by linarith) x.le⟩
        · exact absurd x h0
        · exact absurd x h0
      have hsum : b * ((dp - dq) / dp) + c * ((dp - dr) / dp) = 1 := by
        field_simp
        linear_combination dp * hs - hd
      refine ⟨c * ((dp - dr) / dp), mul_nonneg hc hk.2, by linarith [mul_nonneg hb hk.1], fun i => ?_⟩
      rw [h i]
      have hb' : b = (1 - c * ((dp - dr) / dp)) * (dp / (dp - dq)) := by
        rw [← hsum]; field_simp; ring
      have hc' : c = c * ((dp - dr) / dp) * (dp / (dp - dr)) := by field_simp
      have ha' : a = 1 - b - c := by linarith
      simp only
      linear_combination p i * hs + (q i - p i) * hb' + (r i - p i) * hc'
  · rintro ⟨t, t0, t1, h⟩
    have hk : 0 ≤ dp / (dp - dq) ∧ dp / (dp - dq) ≤ 1 ∧ 0 ≤ dp / (dp - dr) ∧ dp / (dp - dr) ≤ 1 := by
      rcases hp with ⟨x, y, z⟩ | ⟨x, y, z⟩ | ⟨x, y, z⟩ | ⟨x, y, z⟩
      · have h1 : 0 < dp - dq := by linarith
        have h2 : 0 < dp - dr := by linarith
        exact ⟨by positivity, by rw [div_le_one h1]; linarith, by positivity, by rw [div_le_one h2]; linarith⟩
      · have h1 : dp - dq < 0 := by linarith
        have h2 : dp - dr < 0 := by linarith
        exact ⟨div_nonneg_of_nonpos x.le h1.le, by rw [div_le_one_of_neg h1]; linarith,
          div_nonneg_of_nonpos x.le h2.le, by rw [div_le_one_of_neg h2]; linarith⟩
      · simp [x]
      · simp [x]
    set k := dp / (dp - dq) with hkd
    set l := dp / (dp - dr) with hld
    have ek : k * (dp - dq) = dp := by rw [hkd]; field_simp
    have el : l * (dp - dr) = dp := by rw [hld]; field_simp
    have s0 : 0 ≤ 1 - t := by linarith
    refine ⟨1 - (1 - t) * k - t * l, (1 - t) * k, t * l, ?_, by have := hk.1; positivity, by have := hk.2.2.1; positivity,
      by ring, ?_, fun i => ?_⟩
    · nlinarith [mul_nonneg s0 (by linarith [hk.2.1] : 0 ≤ 1 - k), mul_nonneg t0 (by linarith [hk.2.2.2] : 0 ≤ 1 - l)]
    · linear_combination (-(1 - t)) * ek - t * el
    · rw [h i]; ring

theorem intervals_spec (t0 t1 t2 : Vec) (i : Fin 3) (d0 d1 d2 : ℝ) (hn : ¬ (d0 * d1 > 0 ∧ d0 * d2 > 0))
    (hz : ¬ (d0 = 0 ∧ d1 = 0 ∧ d2 = 0)) :
    ∃ (p q r : Vec) (dp dq dr : ℝ), Pivot dp dq dr ∧ (∀ x, SecW t0 t1 t2 d0 d1 d2 x ↔ SecW p q r dp dq dr x) ∧
      computeIntervals (t0 i) (t1 i) (t2 i) d0 d1 d2 (d0 * d1) (d0 * d2)
        = some ⟨p i, (q i - p i) * dp, (r i - p i) * dp, dp - dq, dp - dr⟩ ∧
      computeSection t0 t1 t2 (t0 i) (t1 i) (t2 i) d0 d1 d2 (d0 * d1) (d0 * d2)
        = some (isect2 p q r (p i) (q i) (r i) dp dq dr) := by
  unfold computeIntervals computeSection
  by_cases c1 : d0 * d1 > 0
  · refine ⟨t2, t0, t1, d2, d0, d1, ?_, fun x => secW_rot, by simp only [if_pos c1], by simp only [if_pos c1]⟩
    have h2 : d0 * d2 ≤ 0 := not_lt.mp (fun h => hn ⟨c1, h⟩)
    unfold Pivot
    rcases pos_and_pos_or_neg_and_neg_of_mul_pos c1 with ⟨x, y⟩ | ⟨x, y⟩
    · have : d2 ≤ 0 := by by_contra hc; nlinarith [mul_pos x (not_le.mp hc)]
      rcases this.lt_or_eq with h | h
      · exact Or.inr (Or.inl ⟨h, x.le, y.le⟩)
      · exact Or.inr (Or.inr (Or.inl ⟨h, x, y⟩))
    · have : 0 ≤ d2 := by by_contra hc; nlinarith [mul_pos_of_neg_of_neg x (not_le.mp hc)]
      rcases this.lt_or_eq with h | h
      · exact Or.inl ⟨h, x.le, y.le⟩
      · exact Or.inr (Or.inr (Or.inr ⟨h.symm, x, y⟩))
  simp only [if_neg c1]
  have h1 : d0 * d1 ≤ 0 := not_lt.mp c1
  by_cases c2 : d0 * d2 > 0
  · refine ⟨t1, t0, t2, d1, d0, d2, ?_, fun x => secW_swap, by simp only [if_pos c2], by simp only [if_pos c2]⟩
    unfold Pivot
    rcases pos_and_pos_or_neg_and_neg_of_mul_pos c2 with ⟨x, y⟩ | ⟨x, y⟩
    · have : d1 ≤ 0 := by by_contra hc; nlinarith [mul_pos x (not_le.mp hc)]
      rcases this.lt_or_eq with h | h
      · exact Or.inr (Or.inl ⟨h, x.le, y.le⟩)
      · exact Or.inr (Or.inr (Or.inl ⟨h, x, y⟩))
    · have : 0 ≤ d1 := by by_contra hc; nlinarith [mul_pos_of_neg_of_neg x (not_le.mp hc)]
      rcases this.lt_or_eq with h | h
      · exact Or.inl ⟨h, x.le, y.le⟩
      · exact Or.inr (Or.inr (Or.inr ⟨h.symm, x, y⟩))
  simp only [if_neg c2]
  have h2 : d0 * d2 ≤ 0 := not_lt.mp c2
  by_cases c3 : d1 * d2 > 0 ∨ d0 ≠ 0
  · refine ⟨t0, t1, t2, d0, d1, d2, ?_, fun x => Iff.rfl, by simp only [if_pos c3], by simp only [if_pos c3]⟩
    unfold Pivot
    rcases lt_trichotomy d0 0 with x | x | x
    · exact Or.inr (Or.inl ⟨x, by by_contra hc; nlinarith [mul_pos_of_neg_of_neg x (not_le.mp hc)],
        by by_contra hc; nlinarith [mul_pos_of_neg_of_neg x (not_le.mp hc)]⟩)
    · rcases c3 with c3 | c3
      · rcases pos_and_pos_or_neg_and_neg_of_mul_pos c3 with ⟨y, z⟩ | ⟨y, z⟩
        · exact Or.inr (Or.inr (Or.inl ⟨x, y, z⟩))
        · exact Or.inr (Or.inr (Or.inr ⟨x, y, z⟩))
      · exact absurd x c3
    · exact Or.inl ⟨x, by by_contra hc; nlinarith [mul_pos x (not_le.mp hc)],
        by by_contra hc; nlinarith [mul_pos x (not_le.mp hc)]⟩
  simp only [if_neg c3]
  push Not at c3
  obtain ⟨c3, z0⟩ := c3
  by_cases c4 : d1 ≠ 0
  · refine ⟨t1, t0, t2, d1, d0, d2, ?_, fun x => secW_swap, by simp only [if_pos c4], by simp only [if_pos c4]⟩
    unfold Pivot
    rcases lt_or_gt_of_ne c4 with x | x
    · exact Or.inr (Or.inl ⟨x, z0.ge, by by_contra hc; nlinarith [mul_pos_of_neg_of_neg x (not_le.mp hc)]⟩)
    · exact Or.inl ⟨x, z0.le, by by_contra hc; nlinarith [mul_pos x (not_le.mp hc)]⟩
  simp only [if_neg c4]
  push Not at c4
  have c5 : d2 ≠ 0 := fun h => hz ⟨z0, c4, h⟩
  refine ⟨t2, t0, t1, d2, d0, d1, ?_, fun x => secW_rot, by simp only [if_pos c5], by simp only [if_pos c5]⟩
  unfold Pivot
  rcases lt_or_gt_of_ne c5 with x | x
  · exact Or.inr (Or.inl ⟨x, z0.ge, c4.ge⟩)
  · exact Or.inl ⟨x, z0.le, c4.le⟩

theorem intervals_zero (t0 t1 t2 : Vec) (i : Fin 3) :
    computeIntervals (t0 i) (t1 i) (t2 i) 0 0 0 (0 * 0) (0 * 0) = none ∧
      computeSection t0 t1 t2 (t0 i) (t1 i) (t2 i) 0 0 0 (0 * 0) (0 * 0) = none := by
  constructor <;> simp [computeIntervals, computeSection]

/-! ### the common line of two planes -/

theorem longestAxis_ne {d : Vec} (h : d ≠ 0) : d (longestAxis d) ≠ 0 := by
  intro h0
  apply h
  have key : ∀ i, |d i| ≤ |d (longestAxis d)| := by
    unfold longestAxis
    intro i
    fin_cases i <;> simp only <;> split_ifs <;> simp_all <;> linarith
  funext i
  have := key i
  rw [h0, abs_zero] at this
  exact abs_eq_zero.mp (le_antisymm this (abs_nonneg _))

theorem line_inj {n m w : Vec} {i : Fin 3} (hD : cross n m i ≠ 0) (h1 : n 0 * w 0 + n 1 * w 1 + n 2 * w 2 = 0)
    (h2 : m 0 * w 0 + m 1 * w 1 + m 2 * w 2 = 0) (hi : w i = 0) : ∀ j, w j = 0 := by
  obtain ⟨c0, c1, c2⟩ := cross3 n m
  have e01 : w 0 * cross n m 1 = w 1 * cross n m 0 := by
    rw [c0, c1]; linear_combination n 2 * h2 - m 2 * h1
  have e12 : w 1 * cross n m 2 = w 2 * cross n m 1 := by
    rw [c2, c1]; linear_combination n 0 * h2 - m 0 * h1
  have e20 : w 2 * cross n m 0 = w 0 * cross n m 2 := by
    rw [c0, c2]; linear_combination n 1 * h2 - m 1 * h1
  intro j
  apply (mul_eq_zero.mp (_ : w j * cross n m i = 0)).resolve_right hD
  fin_cases i <;> fin_cases j <;> simp at hi ⊢ <;> simp [hi] at e01 e12 e20 <;> tauto

/-- Two points with the same signed volumes over both triangles and one equal coordinate are equal. -/
theorem point_inj {v0 v1 v2 u0 u1 u2 x y : Vec} {i : Fin 3} (hD : cross (normal v0 v1 v2) (normal u0 u1 u2) i ≠ 0)
    (hv : tetra v0 v1 v2 x = tetra v0 v1 v2 y) (hu : tetra u0 u1 u2 x = tetra u0 u1 u2 y) (hi : x i = y i) : x = y := by
  rw [tetra_eq, tetra_eq] at hv hu
  have := line_inj (w := fun j => x j - y j) hD (by linear_combination hv) (by linear_combination hu) (by simp [hi])
  funext j
  linarith [this j]

/-- What is perpendicular to a vector is perpendicular to its multiples. -/
theorem parallel_perp {n m w : Vec} (hn : n ≠ 0) (hD : cross n m = 0) (hw : n 0 * w 0 + n 1 * w 1 + n 2 * w 2 = 0) :
    m 0 * w 0 + m 1 * w 1 + m 2 * w 2 = 0 := by
  obtain ⟨c0, c1, c2⟩ := cross3 n m
  rw [hD] at c0 c1 c2
  simp only [Pi.zero_apply] at c0 c1 c2
  by_contra hne
  apply hn
  funext j
  apply (mul_eq_zero.mp (_ : n j * (m 0 * w 0 + m 1 * w 1 + m 2 * w 2) = 0)).resolve_right hne
  fin_cases j
  · simp only [Fin.zero_eta]; linear_combination m 0 * hw - w 1 * c2 + w 2 * c1
  · simp only [Fin.mk_one]; linear_combination m 1 * hw + w 0 * c2 - w 2 * c0
  · simp only [Fin.reduceFinMk]; linear_combination m 2 * hw - w 0 * c1 + w 1 * c0

/-- Parallel normals: all corners are on the same level. -/
theorem parallel_levels {v0 v1 v2 u0 u1 u2 : Vec} (hv : Proper v0 v1 v2)
    (hD : cross (normal v0 v1 v2) (normal u0 u1 u2) = 0) :
    tetra u0 u1 u2 v0 = tetra u0 u1 u2 v1 ∧ tetra u0 u1 u2 v0 = tetra u0 u1 u2 v2 := by
  have hn : normal v0 v1 v2 ≠ 0 := (proper_iff _ _ _).mp hv
  obtain ⟨s0, s1, s2⟩ := tetra_self v0 v1 v2
  rw [tetra_eq] at s0 s1 s2
  have k1 := parallel_perp (w := fun j => v1 j - v0 j) hn hD (by linear_combination s1 - s0)
  have k2 := parallel_perp (w := fun j => v2 j - v0 j) hn hD (by linear_combination s2 - s0)
  simp only [tetra_eq]
  constructor
  · linear_combination -k1
  · linear_combination -k2

/-- If the corners of one triangle are in the plane of the other, the normals are parallel. -/
theorem coplanar_parallel {v0 v1 v2 u0 u1 u2 : Vec} (h0 : tetra v0 v1 v2 u0 = 0) (h1 : tetra v0 v1 v2 u1 = 0)
    (h2 : tetra v0 v1 v2 u2 = 0) : cross (normal v0 v1 v2) (normal u0 u1 u2) = 0 := by
  rw [tetra_eq] at h0 h1 h2
  obtain ⟨c0, c1, c2⟩ := cross3 (normal v0 v1 v2) (normal u0 u1 u2)
  obtain ⟨m0, m1, m2⟩ := normal3 u0 u1 u2
  generalize normal v0 v1 v2 = n at *
  rw [vec_zero, c0, c1, c2, m0, m1, m2]
  refine ⟨?_, ?_, ?_⟩
  · linear_combination (u1 0 - u0 0) * (h2 - h0) - (u2 0 - u0 0) * (h1 - h0)
  · linear_combination (u1 1 - u0 1) * (h2 - h0) - (u2 1 - u0 1) * (h1 - h0)
  · linear_combination (u1 2 - u0 2) * (h2 - h0) - (u2 2 - u0 2) * (h1 - h0)

theorem coplanar_symm {v0 v1 v2 u0 u1 u2 : Vec} (hv : Proper v0 v1 v2) (h0 : tetra v0 v1 v2 u0 = 0)
    (h1 : tetra v0 v1 v2 u1 = 0) (h2 : tetra v0 v1 v2 u2 = 0) :
    tetra u0 u1 u2 v0 = 0 ∧ tetra u0 u1 u2 v1 = 0 ∧ tetra u0 u1 u2 v2 = 0 := by
  have hD := coplanar_parallel h0 h1 h2
  obtain ⟨l1, l2⟩ := parallel_levels hv hD
  have hz : tetra u0 u1 u2 v0 = 0 := by
    rw [tetra_eq] at h0 ⊢
    have hn : normal v0 v1 v2 ≠ 0 := (proper_iff _ _ _).mp hv
    exact parallel_perp (w := fun j => v0 j - u0 j) hn hD (by linear_combination -h0)
  exact ⟨hz, l1 ▸ hz, l2 ▸ hz⟩

/-! ### overlapping intervals -/

theorem overlap_iff (e0 e1 f0 f1 : ℝ) :
    ¬ ((sort (e0, e1)).2 < (sort (f0, f1)).1 ∨ (sort (f0, f1)).2 < (sort (e0, e1)).1) ↔
      ∃ s t : ℝ, 0 ≤ s ∧ s ≤ 1 ∧ 0 ≤ t ∧ t ≤ 1 ∧ e0 + s * (e1 - e0) = f0 + t * (f1 - f0) := by
  have hs : ∀ a b : ℝ, sort (a, b) = (min a b, max a b) := by
    intro a b
    unfold sort
    split
    · rename_i h; rw [min_eq_right (le_of_lt h), max_eq_left (le_of_lt h)]
    · rename_i h; rw [min_eq_left (not_lt.mp h), max_eq_right (not_lt.mp h)]
  have hparam : ∀ a b y : ℝ, min a b ≤ y → y ≤ max a b → ∃ s, 0 ≤ s ∧ s ≤ 1 ∧ a + s * (b - a) = y := by
    intro a b y h1 h2
    rcases lt_trichotomy a b with h | h | h
    · rw [min_eq_left h.le] at h1; rw [max_eq_right h.le] at h2
      have : 0 < b - a := by linarith
      exact ⟨(y - a) / (b - a), div_nonneg (by linarith) this.le, by rw [div_le_one this]; linarith, by field_simp; ring⟩
    · subst h
      rw [min_self] at h1; rw [max_self] at h2
      exact ⟨0, le_rfl, zero_le_one, by linarith⟩
    · rw [min_eq_right h.le] at h1; rw [max_eq_left h.le] at h2
      have : b - a < 0 := by linarith
      exact ⟨(y - a) / (b - a), div_nonneg_of_nonpos (by linarith) this.le, by rw [div_le_one_of_neg this]; linarith,
        by rw [div_mul_cancel₀ _ this.ne]; ring⟩
  have hrange : ∀ a b s : ℝ, 0 ≤ s → s ≤ 1 → min a b ≤ a + s * (b - a) ∧ a + s * (b - a) ≤ max a b := by
    intro a b s h0 h1
    rcases le_total a b with h | h
    · rw [min_eq_left h, max_eq_right h]
      constructor <;> nlinarith
    · rw [min_eq_right h, max_eq_left h]
      constructor <;> nlinarith
  rw [hs, hs]
  simp only
  push Not
  constructor
  · rintro ⟨h1, h2⟩
    obtain ⟨s, s0, s1, es⟩ := hparam e0 e1 (max (min e0 e1) (min f0 f1)) (le_max_left _ _)
      (max_le (min_le_max) h1)
    obtain ⟨t, t0, t1, et⟩ := hparam f0 f1 (max (min e0 e1) (min f0 f1)) (le_max_right _ _)
      (max_le h2 (min_le_max))
    exact ⟨s, t, s0, s1, t0, t1, es.trans et.symm⟩
  · rintro ⟨s, t, s0, s1, t0, t1, h⟩
    have a := hrange e0 e1 s s0 s1
    have b := hrange f0 f1 t t0 t1
    rw [h] at a
    exact ⟨b.1.trans a.2, a.1.trans b.2⟩

theorem sort_scale {k : ℝ} (hk : 0 < k) (a b : ℝ) : sort (k * a, k * b) = (k * (sort (a, b)).1, k * (sort (a, b)).2) := by
  unfold sort
  by_cases h : a > b
  · rw [if_pos h, if_pos (by simpa using mul_lt_mul_of_pos_left h hk)]
  · rw [if_neg h, if_neg (by simpa using mul_le_mul_of_nonneg_left (not_lt.mp h) hk.le)]

/-! ### the two triangles -/

theorem hull_zero {v0 v1 v2 x : Vec} (h : x ∈ convexHull ℝ {v0, v1, v2}) : tetra v0 v1 v2 x = 0 := by
  obtain ⟨a, b, c, -, -, -, hs, e⟩ := (mem_tri _ _ _ _).mp h
  obtain ⟨s0, s1, s2⟩ := tetra_self v0 v1 v2
  rw [tetra_comb _ _ _ _ _ _ _ hs e, s0, s1, s2]; ring

theorem sec_iff {v0 v1 v2 u0 u1 u2 x : Vec} :
    SecW v0 v1 v2 (tetra u0 u1 u2 v0) (tetra u0 u1 u2 v1) (tetra u0 u1 u2 v2) x ↔
      x ∈ convexHull ℝ {v0, v1, v2} ∧ tetra u0 u1 u2 x = 0 := by
  rw [mem_tri]
  constructor
  · rintro ⟨a, b, c, ha, hb, hc, hs, hd, e⟩
    exact ⟨⟨a, b, c, ha, hb, hc, hs, e⟩, by rw [tetra_comb _ _ _ _ _ _ _ hs e]; exact hd⟩
  · rintro ⟨⟨a, b, c, ha, hb, hc, hs, e⟩, hd⟩
    exact ⟨a, b, c, ha, hb, hc, hs, by rw [← tetra_comb _ _ _ _ _ _ _ hs e]; exact hd, e⟩

/-- All corners strictly on one side: nothing of the triangle is in the plane. -/
theorem reject {p q r x : Vec} {d0 d1 d2 : ℝ} (h : d0 * d1 > 0 ∧ d0 * d2 > 0) : ¬ SecW p q r d0 d1 d2 x := by
  rintro ⟨a, b, c, ha, hb, hc, hs, hd, -⟩
  have h0 : d0 ≠ 0 := by rintro rfl; simp at h
  have e : a * (d0 * d0) + b * (d0 * d1) + c * (d0 * d2) = 0 := by linear_combination d0 * hd
  have p0 : 0 < d0 * d0 := mul_self_pos.mpr h0
  have m0 := mul_nonneg ha p0.le
  have m1 := mul_nonneg hb (le_of_lt h.1)
  have m2 := mul_nonneg hc (le_of_lt h.2)
  have z0 := (mul_eq_zero.mp (by linarith : a * (d0 * d0) = 0)).resolve_right p0.ne'
  have z1 := (mul_eq_zero.mp (by linarith : b * (d0 * d1) = 0)).resolve_right (ne_of_gt h.1)
  have z2 := (mul_eq_zero.mp (by linarith : c * (d0 * d2) = 0)).resolve_right (ne_of_gt h.2)
  linarith

/-- The corners of each triangle are on both sides of the plane of the other one. -/
structure Crossing (v0 v1 v2 u0 u1 u2 : Vec) : Prop where
  hv : Proper v0 v1 v2
  hnv : ¬ (tetra u0 u1 u2 v0 * tetra u0 u1 u2 v1 > 0 ∧ tetra u0 u1 u2 v0 * tetra u0 u1 u2 v2 > 0)
  hnu : ¬ (tetra v0 v1 v2 u0 * tetra v0 v1 v2 u1 > 0 ∧ tetra v0 v1 v2 u0 * tetra v0 v1 v2 u2 > 0)
  hzv : ¬ (tetra u0 u1 u2 v0 = 0 ∧ tetra u0 u1 u2 v1 = 0 ∧ tetra u0 u1 u2 v2 = 0)
  hzu : ¬ (tetra v0 v1 v2 u0 = 0 ∧ tetra v0 v1 v2 u1 = 0 ∧ tetra v0 v1 v2 u2 = 0)

theorem Crossing.axis {v0 v1 v2 u0 u1 u2 : Vec} (h : Crossing v0 v1 v2 u0 u1 u2) :
    cross (normal v0 v1 v2) (normal u0 u1 u2) (longestAxis (cross (normal v0 v1 v2) (normal u0 u1 u2))) ≠ 0 := by
  apply longestAxis_ne
  intro hD
  obtain ⟨l1, l2⟩ := parallel_levels h.hv hD
  have h1 := h.hnv
  have h2 := h.hzv
  rw [← l1, ← l2] at h1 h2
  have hz : tetra u0 u1 u2 v0 ≠ 0 := fun e => h2 ⟨e, e, e⟩
  have := mul_self_pos.mpr hz
  exact h1 ⟨this, this⟩

/-- The ends of the two sections: the common points of the triangles are the common points of two segments of one line. -/
theorem Crossing.spec {v0 v1 v2 u0 u1 u2 : Vec} (h : Crossing v0 v1 v2 u0 u1 u2) :
    let i := longestAxis (cross (normal v0 v1 v2) (normal u0 u1 u2))
    ∃ (p q r p' q' r' : Vec) (dp dq dr dp' dq' dr' : ℝ), Pivot dp dq dr ∧ Pivot dp' dq' dr' ∧
      (∀ x, Btw (fun i => dp / (dp - dq) * (q i - p i) + p i) (fun i => p i + dp / (dp - dr) * (r i - p i)) x ↔
        x ∈ convexHull ℝ {v0, v1, v2} ∧ tetra u0 u1 u2 x = 0) ∧
      (∀ x, Btw (fun i => dp' / (dp' - dq') * (q' i - p' i) + p' i) (fun i => p' i + dp' / (dp' - dr') * (r' i - p' i)) x ↔
        x ∈ convexHull ℝ {u0, u1, u2} ∧ tetra v0 v1 v2 x = 0) ∧
      computeIntervals (v0 i) (v1 i) (v2 i) (tetra u0 u1 u2 v0) (tetra u0 u1 u2 v1) (tetra u0 u1 u2 v2)
        (tetra u0 u1 u2 v0 * tetra u0 u1 u2 v1) (tetra u0 u1 u2 v0 * tetra u0 u1 u2 v2)
        = some ⟨p i, (q i - p i) * dp, (r i - p i) * dp, dp - dq, dp - dr⟩ ∧
      computeIntervals (u0 i) (u1 i) (u2 i) (tetra v0 v1 v2 u0) (tetra v0 v1 v2 u1) (tetra v0 v1 v2 u2)
        (tetra v0 v1 v2 u0 * tetra v0 v1 v2 u1) (tetra v0 v1 v2 u0 * tetra v0 v1 v2 u2)
        = some ⟨p' i, (q' i - p' i) * dp', (r' i - p' i) * dp', dp' - dq', dp' - dr'⟩ ∧
      computeSection v0 v1 v2 (v0 i) (v1 i) (v2 i) (tetra u0 u1 u2 v0) (tetra u0 u1 u2 v1) (tetra u0 u1 u2 v2)
        (tetra u0 u1 u2 v0 * tetra u0 u1 u2 v1) (tetra u0 u1 u2 v0 * tetra u0 u1 u2 v2)
        = some (isect2 p q r (p i) (q i) (r i) dp dq dr) ∧
      computeSection u0 u1 u2 (u0 i) (u1 i) (u2 i) (tetra v0 v1 v2 u0) (tetra v0 v1 v2 u1) (tetra v0 v1 v2 u2)
        (tetra v0 v1 v2 u0 * tetra v0 v1 v2 u1) (tetra v0 v1 v2 u0 * tetra v0 v1 v2 u2)
        = some (isect2 p' q' r' (p' i) (q' i) (r' i) dp' dq' dr') := by
  intro i
  obtain ⟨p, q, r, dp, dq, dr, hp, hx, h1, h2⟩ := intervals_spec v0 v1 v2 i _ _ _ h.hnv h.hzv
  obtain ⟨p', q', r', dp', dq', dr', hp', hx', h1', h2'⟩ := intervals_spec u0 u1 u2 i _ _ _ h.hnu h.hzu
  refine ⟨p, q, r, p', q', r', dp, dq, dr, dp', dq', dr', hp, hp', fun x => ?_, fun x => ?_, h1, h1', h2, h2'⟩
  · rw [← section_iff hp, ← hx, sec_iff]
  · rw [← section_iff hp', ← hx', sec_iff]

/-- Two segments whose points lie in both planes meet exactly when their coordinates do. -/
theorem Crossing.meets {v0 v1 v2 u0 u1 u2 : Vec} (h : Crossing v0 v1 v2 u0 u1 u2) {e0 e1 f0 f1 : Vec}
    (he : ∀ x, Btw e0 e1 x ↔ x ∈ convexHull ℝ {v0, v1, v2} ∧ tetra u0 u1 u2 x = 0)
    (hf : ∀ x, Btw f0 f1 x ↔ x ∈ convexHull ℝ {u0, u1, u2} ∧ tetra v0 v1 v2 x = 0) :
    let i := longestAxis (cross (normal v0 v1 v2) (normal u0 u1 u2))
    (∃ s t : ℝ, 0 ≤ s ∧ s ≤ 1 ∧ 0 ≤ t ∧ t ≤ 1 ∧ e0 i + s * (e1 i - e0 i) = f0 i + t * (f1 i - f0 i)) ↔
      Meets (convexHull ℝ {v0, v1, v2}) (convexHull ℝ {u0, u1, u2}) := by
  intro i
  constructor
  · rintro ⟨s, t, s0, s1, t0, t1, e⟩
    have hx := (he (fun j => e0 j + s * (e1 j - e0 j))).mp ⟨s, s0, s1, fun _ => rfl⟩
    have hy := (hf (fun j => f0 j + t * (f1 j - f0 j))).mp ⟨t, t0, t1, fun _ => rfl⟩
    have := point_inj h.axis ((hull_zero hx.1).trans hy.2.symm) (hx.2.trans (hull_zero hy.1).symm) e
    exact ⟨_, hx.1, this ▸ hy.1⟩
  · rintro ⟨x, hx, hy⟩
    obtain ⟨s, s0, s1, es⟩ := (he x).mpr ⟨hx, hull_zero hy⟩
    obtain ⟨t, t0, t1, et⟩ := (hf x).mpr ⟨hy, hull_zero hx⟩
    exact ⟨s, t, s0, s1, t0, t1, by rw [← es i, ← et i]⟩

/-! ### in one plane -/

/-- The projection. -/
def pr (i0 i1 : Fin 3) (x : Vec) : P2 := (x i0, x i1)

theorem edgeEdge_iff (i0 i1 : Fin 3) (v0 v1 u0 u1 : Vec) :
    edgeEdge i0 i1 (v1 i0 - v0 i0) (v1 i1 - v0 i1) v0 u0 u1 = true ↔
      Cross (pr i0 i1 v0) (pr i0 i1 v1) (pr i0 i1 u0) (pr i0 i1 u1) := by
  unfold edgeEdge Cross para Seg2 pr
  simp only
  generalize v0 i0 = a0
  generalize v0 i1 = a1
  generalize v1 i0 = b0
  generalize v1 i1 = b1
  generalize u0 i0 = c0
  generalize u0 i1 = c1
  generalize u1 i0 = d0
  generalize u1 i1 = d1
  set f := (b1 - a1) * (c0 - d0) - (b0 - a0) * (c1 - d1) with hf
  set d := (c1 - d1) * (a0 - c0) - (c0 - d0) * (a1 - c1) with hd
  set e := (b0 - a0) * (a1 - c1) - (b1 - a1) * (a0 - c0) with he
  have hpara : (b0 - a0) * (d1 - c1) - (b1 - a1) * (d0 - c0) = f := by rw [hf]; ring
  rw [hpara]
  have hstart : ((if f > 0 ∧ d ≥ 0 ∧ d ≤ f ∨ f < 0 ∧ d ≤ 0 ∧ d ≥ f then
      (if f > 0 then decide (e ≥ 0 ∧ e ≤ f) else decide (e ≤ 0 ∧ e ≥ f)) else false) = true) ↔
      (0 < f ∧ 0 ≤ d ∧ d ≤ f ∧ 0 ≤ e ∧ e ≤ f) ∨ (f < 0 ∧ d ≤ 0 ∧ f ≤ d ∧ e ≤ 0 ∧ f ≤ e) := by
    by_cases c1 : f > 0
    · have : ¬ f < 0 := not_lt.mpr (le_of_lt c1)
      by_cases c2 : d ≥ 0 ∧ d ≤ f
      · simp [c1, c2, this]
      · simp only [c1, c2, this, true_and, false_and, or_false, if_false]
        simp only [Bool.false_eq_true, false_iff]
        tauto
    · by_cases c2 : f < 0 ∧ d ≤ 0 ∧ d ≥ f
      · simp [c1, c2]
      · simp only [c1, c2, false_and, or_self, if_false, Bool.false_eq_true, false_iff]
        tauto
  rw [hstart]
  constructor
  · intro h
    have hne : f ≠ 0 := by rcases h with h | h <;> linarith [h.1]
    have hs : 0 ≤ d / f ∧ d / f ≤ 1 ∧ 0 ≤ e / f ∧ e / f ≤ 1 := by
      rcases h with ⟨h0, h1, h2, h3, h4⟩ | ⟨h0, h1, h2, h3, h4⟩
      · exact ⟨by positivity, by rw [div_le_one h0]; exact h2, by positivity, by rw [div_le_one h0]; exact h4⟩
      · exact ⟨div_nonneg_of_nonpos h1 h0.le, by rw [div_le_one_of_neg h0]; exact h2, div_nonneg_of_nonpos h3 h0.le,
          by rw [div_le_one_of_neg h0]; exact h4⟩
    refine ⟨hne, (a0 + d / f * (b0 - a0), a1 + d / f * (b1 - a1)), ⟨d / f, hs.1, hs.2.1, rfl, rfl⟩,
      ⟨e / f, hs.2.2.1, hs.2.2.2, ?_, ?_⟩⟩
    · apply mul_right_cancel₀ hne
      rw [add_mul, add_mul, mul_right_comm, mul_right_comm (e / f), div_mul_cancel₀ _ hne, div_mul_cancel₀ _ hne, hf, hd, he]; ring
    · apply mul_right_cancel₀ hne
      rw [add_mul, add_mul, mul_right_comm, mul_right_comm (e / f), div_mul_cancel₀ _ hne, div_mul_cancel₀ _ hne, hf, hd, he]; ring
  · rintro ⟨hne, x, ⟨s, s0, s1, x1, x2⟩, ⟨t, t0, t1, y1, y2⟩⟩
    rw [x1] at y1
    rw [x2] at y2
    have hd' : d = s * f := by rw [hd, hf]; linear_combination (c1 - d1) * y1 - (c0 - d0) * y2
    have he' : e = t * f := by rw [he, hf]; linear_combination (b0 - a0) * y2 - (b1 - a1) * y1
    rcases lt_or_gt_of_ne hne with h | h
    · right
      exact ⟨h, by rw [hd']; nlinarith, by rw [hd']; nlinarith, by rw [he']; nlinarith, by rw [he']; nlinarith⟩
    · left
      exact ⟨h, by rw [hd']; nlinarith, by rw [hd']; nlinarith, by rw [he']; nlinarith, by rw [he']; nlinarith⟩

theorem pointInTri_iff (i0 i1 : Fin 3) (v0 u0 u1 u2 : Vec) (h : area (pr i0 i1 u0) (pr i0 i1 u1) (pr i0 i1 u2) ≠ 0) :
    pointInTri i0 i1 v0 u0 u1 u2 = true ↔ Inside (pr i0 i1 u0) (pr i0 i1 u1) (pr i0 i1 u2) (pr i0 i1 v0) := by
  have e0 : (u1 i1 - u0 i1) * v0 i0 + -(u1 i0 - u0 i0) * v0 i1 + (-(u1 i1 - u0 i1) * u0 i0 - -(u1 i0 - u0 i0) * u0 i1)
      = -area (pr i0 i1 u0) (pr i0 i1 u1) (pr i0 i1 v0) := by unfold area pr; ring
  have e1 : (u2 i1 - u1 i1) * v0 i0 + -(u2 i0 - u1 i0) * v0 i1 + (-(u2 i1 - u1 i1) * u1 i0 - -(u2 i0 - u1 i0) * u1 i1)
      = -area (pr i0 i1 u1) (pr i0 i1 u2) (pr i0 i1 v0) := by unfold area pr; ring
  have e2 : (u0 i1 - u2 i1) * v0 i0 + -(u0 i0 - u2 i0) * v0 i1 + (-(u0 i1 - u2 i1) * u2 i0 - -(u0 i0 - u2 i0) * u2 i1)
      = -area (pr i0 i1 u2) (pr i0 i1 u0) (pr i0 i1 v0) := by unfold area pr; ring
  unfold pointInTri
  simp only [e0, e1, e2, decide_eq_true_eq, neg_mul_neg]
  generalize pr i0 i1 u0 = p at *
  generalize pr i0 i1 u1 = q at *
  generalize pr i0 i1 u2 = r at *
  generalize pr i0 i1 v0 = x at *
  have hsum : area p q x + area q r x + area r p x = area p q r := by unfold area; ring
  constructor
  · rintro ⟨h1, h2⟩
    refine ⟨_, _, _, ?_, ?_, ?_, weights h x⟩
    all_goals
      rcases pos_and_pos_or_neg_and_neg_of_mul_pos h1 with ⟨a, b⟩ | ⟨a, b⟩
      · have c : 0 < area r p x := (mul_pos_iff_of_pos_left a).mp h2
        have d : 0 < area p q r := by linarith
        positivity
      · have c : area r p x < 0 := by
          by_contra hc
          linarith [mul_nonpos_of_nonpos_of_nonneg a.le (not_lt.mp hc)]
        have d : area p q r < 0 := by linarith
        first | exact div_pos_of_neg_of_neg a d | exact div_pos_of_neg_of_neg b d | exact div_pos_of_neg_of_neg c d
  · rintro ⟨a, b, c, ha, hb, hc, hs, x1, x2⟩
    have w0 : area p q x = c * area p q r := by
      unfold area; rw [x1, x2]
      linear_combination ((q.1 - p.1) * p.2 - (q.2 - p.2) * p.1) * hs
    have w1 : area q r x = a * area p q r := by
      unfold area; rw [x1, x2]
      linear_combination ((r.1 - q.1) * q.2 - (r.2 - q.2) * q.1) * hs
    have w2 : area r p x = b * area p q r := by
      unfold area; rw [x1, x2]
      linear_combination ((p.1 - r.1) * r.2 - (p.2 - r.2) * r.1) * hs
    have hpos := mul_self_pos.mpr h
    rw [w0, w1, w2]
    constructor
    · have : 0 < c * a * (area p q r * area p q r) := by positivity
      linarith
    · have : 0 < c * b * (area p q r * area p q r) := by positivity
      linarith

theorem edges_iff (i0 i1 : Fin 3) (v0 v1 v2 u0 u1 u2 : Vec) :
    (edgeAgainstTri i0 i1 v0 v1 u0 u1 u2 || edgeAgainstTri i0 i1 v1 v2 u0 u1 u2 || edgeAgainstTri i0 i1 v2 v0 u0 u1 u2) = true ↔
      EdgesCross (pr i0 i1 v0) (pr i0 i1 v1) (pr i0 i1 v2) (pr i0 i1 u0) (pr i0 i1 u1) (pr i0 i1 u2) := by
  unfold edgeAgainstTri
  simp only [Bool.or_eq_true, edgeEdge_iff]
  generalize pr i0 i1 v0 = p
  generalize pr i0 i1 v1 = q
  generalize pr i0 i1 v2 = r
  generalize pr i0 i1 u0 = p'
  generalize pr i0 i1 u1 = q'
  generalize pr i0 i1 u2 = r'
  constructor
  · rintro ((((h | h) | h) | ((h | h) | h)) | ((h | h) | h))
    · exact ⟨p, q, r, p', q', r', by simp [Perm], by simp [Perm], h⟩
    · exact ⟨p, q, r, q', r', p', by simp [Perm], by simp [Perm], h⟩
    · exact ⟨p, q, r, r', p', q', by simp [Perm], by simp [Perm], h⟩
    · exact ⟨q, r, p, p', q', r', by simp [Perm], by simp [Perm], h⟩
    · exact ⟨q, r, p, q', r', p', by simp [Perm], by simp [Perm], h⟩
    · exact ⟨q, r, p, r', p', q', by simp [Perm], by simp [Perm], h⟩
    · exact ⟨r, p, q, p', q', r', by simp [Perm], by simp [Perm], h⟩
    · exact ⟨r, p, q, q', r', p', by simp [Perm], by simp [Perm], h⟩
    · exact ⟨r, p, q, r', p', q', by simp [Perm], by simp [Perm], h⟩
  · rintro ⟨a, b, c, a', b', c', h1, h2, h⟩
    have g1 : ∀ {x y : P2}, Cross a b x y → Cross p q x y ∨ Cross q r x y ∨ Cross r p x y := by
      intro x y h
      rcases h1 with ⟨rfl, rfl, rfl⟩ | ⟨rfl, rfl, rfl⟩ | ⟨rfl, rfl, rfl⟩ | ⟨rfl, rfl, rfl⟩ | ⟨rfl, rfl, rfl⟩ | ⟨rfl, rfl, rfl⟩
      · exact Or.inl h
      · exact Or.inr (Or.inl h)
      · exact Or.inr (Or.inr h)
      · exact Or.inl (cross_symm h)
      · exact Or.inr (Or.inl (cross_symm h))
      · exact Or.inr (Or.inr (cross_symm h))
    have g2 : ∀ {x y : P2}, Cross x y a' b' → Cross x y p' q' ∨ Cross x y q' r' ∨ Cross x y r' p' := by
      intro x y h
      rcases h2 with ⟨rfl, rfl, rfl⟩ | ⟨rfl, rfl, rfl⟩ | ⟨rfl, rfl, rfl⟩ | ⟨rfl, rfl, rfl⟩ | ⟨rfl, rfl, rfl⟩ | ⟨rfl, rfl, rfl⟩
      · exact Or.inl h
      · exact Or.inr (Or.inl h)
      · exact Or.inr (Or.inr h)
      · exact Or.inl (cross_symm' h)
      · exact Or.inr (Or.inl (cross_symm' h))
      · exact Or.inr (Or.inr (cross_symm' h))
    rcases g1 h with h | h | h <;> rcases g2 h with h | h | h <;> simp [h]

/-- The axes are two different ones, and the normal has a component along the third. -/
theorem axes_spec {n : Vec} (h : n ≠ 0) :
    (axes n = (1, 2) ∧ n 0 ≠ 0) ∨ (axes n = (0, 1) ∧ n 2 ≠ 0) ∨ (axes n = (0, 2) ∧ n 1 ≠ 0) := by
  rw [Ne, vec_zero] at h
  unfold axes
  have p0 := abs_nonneg (n 0)
  have p1 := abs_nonneg (n 1)
  have p2 := abs_nonneg (n 2)
  have z : ∀ x : ℝ, |x| ≤ 0 → x = 0 := fun x hx => abs_eq_zero.mp (le_antisymm hx (abs_nonneg _))
  split_ifs with c1 c2 c3
  · exact Or.inl ⟨rfl, fun e => by rw [e, abs_zero] at c1; linarith⟩
  · refine Or.inr (Or.inl ⟨rfl, fun e => ?_⟩)
    rw [e, abs_zero] at c2
    linarith
  · exact Or.inr (Or.inl ⟨rfl, fun e => by rw [e, abs_zero] at c3; linarith⟩)
  · refine Or.inr (Or.inr ⟨rfl, fun e => ?_⟩)
    rw [e, abs_zero] at c1 c3
    exact h ⟨z _ (not_lt.mp c1), e, z _ (not_lt.mp c3)⟩

theorem coplanar_iff {v0 v1 v2 u0 u1 u2 : Vec} (hv : Proper v0 v1 v2) (hu : Proper u0 u1 u2)
    (h0 : tetra v0 v1 v2 u0 = 0) (h1 : tetra v0 v1 v2 u1 = 0) (h2 : tetra v0 v1 v2 u2 = 0) :
    coplanar (normal v0 v1 v2) v0 v1 v2 u0 u1 u2 = true ↔
      Meets (convexHull ℝ {v0, v1, v2}) (convexHull ℝ {u0, u1, u2}) := by
  have hn : normal v0 v1 v2 ≠ 0 := (proper_iff _ _ _).mp hv
  have hm : normal u0 u1 u2 ≠ 0 := (proper_iff _ _ _).mp hu
  have hD := coplanar_parallel h0 h1 h2
  obtain ⟨d0, d1, d2⟩ := cross3 (normal v0 v1 v2) (normal u0 u1 u2)
  rw [hD] at d0 d1 d2
  simp only [Pi.zero_apply] at d0 d1 d2
  -- what we need about the projection
  have key : ∃ i0 i1 : Fin 3, axes (normal v0 v1 v2) = (i0, i1) ∧
      area (pr i0 i1 v0) (pr i0 i1 v1) (pr i0 i1 v2) ≠ 0 ∧ area (pr i0 i1 u0) (pr i0 i1 u1) (pr i0 i1 u2) ≠ 0 ∧
      ∀ x y : Vec, tetra v0 v1 v2 x = tetra v0 v1 v2 y → x i0 = y i0 → x i1 = y i1 → x = y := by
    obtain ⟨n0, n1, n2⟩ := normal3 v0 v1 v2
    obtain ⟨m0, m1, m2⟩ := normal3 u0 u1 u2
    rw [Ne, vec_zero] at hm
    rcases axes_spec hn with ⟨ha, hk⟩ | ⟨ha, hk⟩ | ⟨ha, hk⟩
    · refine ⟨1, 2, ha, ?_, ?_, fun x y ht e0 e1 => ?_⟩
      · rw [n0] at hk; exact hk
      · have : normal u0 u1 u2 0 ≠ 0 := by
          intro e
          rw [e] at d1 d2
          exact hm ⟨e, (mul_eq_zero.mp (by linarith : normal v0 v1 v2 0 * normal u0 u1 u2 1 = 0)).resolve_left hk,
            (mul_eq_zero.mp (by linarith : normal v0 v1 v2 0 * normal u0 u1 u2 2 = 0)).resolve_left hk⟩
        rw [m0] at this; exact this
      · rw [tetra_eq, tetra_eq, e0, e1] at ht
        have : normal v0 v1 v2 0 * (x 0 - y 0) = 0 := by linear_combination ht
        have := (mul_eq_zero.mp this).resolve_left hk
        exact vec_ext (by linarith) e0 e1
    · refine ⟨0, 1, ha, ?_, ?_, fun x y ht e0 e1 => ?_⟩
      · rw [n2] at hk; exact hk
      · have : normal u0 u1 u2 2 ≠ 0 := by
          intro e
          rw [e] at d1 d0
          exact hm ⟨(mul_eq_zero.mp (by linarith : normal v0 v1 v2 2 * normal u0 u1 u2 0 = 0)).resolve_left hk,
            (mul_eq_zero.mp (by linarith : normal v0 v1 v2 2 * normal u0 u1 u2 1 = 0)).resolve_left hk, e⟩
        rw [m2] at this; exact this
      · rw [tetra_eq, tetra_eq, e0, e1] at ht
        have : normal v0 v1 v2 2 * (x 2 - y 2) = 0 := by linear_combination ht
        have := (mul_eq_zero.mp this).resolve_left hk
        exact vec_ext e0 e1 (by linarith)
    · refine ⟨0, 2, ha, ?_, ?_, fun x y ht e0 e1 => ?_⟩
      · rw [n1] at hk; intro e; apply hk; unfold area pr at e; linear_combination -e
      · have : normal u0 u1 u2 1 ≠ 0 := by
          intro e
          rw [e] at d2 d0
          exact hm ⟨(mul_eq_zero.mp (by linarith : normal v0 v1 v2 1 * normal u0 u1 u2 0 = 0)).resolve_left hk, e,
            (mul_eq_zero.mp (by linarith : normal v0 v1 v2 1 * normal u0 u1 u2 2 = 0)).resolve_left hk⟩
        rw [m1] at this; intro e; apply this; unfold area pr at e; linear_combination -e
      · rw [tetra_eq, tetra_eq, e0, e1] at ht
        have : normal v0 v1 v2 1 * (x 1 - y 1) = 0 := by linear_combination ht
        have := (mul_eq_zero.mp this).resolve_left hk
        exact vec_ext e0 (by linarith) e1
  obtain ⟨i0, i1, ha, av, au, inj⟩ := key
  unfold coplanar
  simp only [ha]
  rw [Bool.or_eq_true, Bool.or_eq_true, edges_iff, pointInTri_iff _ _ _ _ _ _ au, pointInTri_iff _ _ _ _ _ _ av, or_assoc,
    ← share_iff av au]
  constructor
  · rintro ⟨x, ⟨a, b, c, ha, hb, hc, hs, x1, x2⟩, ⟨a', b', c', ha', hb', hc', hs', y1, y2⟩⟩
    have hx := (mem_tri v0 v1 v2 (fun i => a * v0 i + b * v1 i + c * v2 i)).mpr ⟨a, b, c, ha, hb, hc, hs, fun _ => rfl⟩
    have hy := (mem_tri u0 u1 u2 (fun i => a' * u0 i + b' * u1 i + c' * u2 i)).mpr
      ⟨a', b', c', ha', hb', hc', hs', fun _ => rfl⟩
    have e := inj _ _ ((hull_zero hx).trans (by
      rw [tetra_comb v0 v1 v2 u0 u1 u2 _ hs' (fun _ => rfl), h0, h1, h2]; ring : _)) (x1.symm.trans y1) (x2.symm.trans y2)
    exact ⟨_, hx, e ▸ hy⟩
  · rintro ⟨x, hx, hy⟩
    obtain ⟨a, b, c, ha, hb, hc, hs, e⟩ := (mem_tri _ _ _ _).mp hx
    obtain ⟨a', b', c', ha', hb', hc', hs', e'⟩ := (mem_tri _ _ _ _).mp hy
    exact ⟨pr i0 i1 x, ⟨a, b, c, ha, hb, hc, hs, e i0, e i1⟩, ⟨a', b', c', ha', hb', hc', hs', e' i0, e' i1⟩⟩

/-! ### the segment -/

theorem sort2_eq (a b : ℝ) : sort2 a b = (min a b, max a b, if a > b then 1 else 0) := by
  unfold sort2
  split
  · rename_i h; rw [min_eq_right (le_of_lt h), max_eq_left (le_of_lt h)]
  · rename_i h; rw [min_eq_left (not_lt.mp h), max_eq_right (not_lt.mp h)]

theorem overlap_spec (s t : Section) (i : Fin 3) (hs0 : s.isect0 = s.point0 i) (hs1 : s.isect1 = s.point1 i)
    (ht0 : t.isect0 = t.point0 i) (ht1 : t.isect1 = t.point1 i) :
    let P := (overlap s t).1
    let Q := (overlap s t).2
    (P = s.point0 ∨ P = s.point1 ∨ P = t.point0 ∨ P = t.point1) ∧
    (Q = s.point0 ∨ Q = s.point1 ∨ Q = t.point0 ∨ Q = t.point1) ∧
    P i = max (min s.isect0 s.isect1) (min t.isect0 t.isect1) ∧
    Q i = min (max s.isect0 s.isect1) (max t.isect0 t.isect1) := by
  have pick : ∀ (a b : ℝ) (p q : Vec), a = p i → b = q i →
      (if (if a > b then 1 else 0) = 0 then p else q) i = min a b ∧
      (if (if a > b then 1 else 0) = 0 then q else p) i = max a b := by
    intro a b p q ha hb
    by_cases h : a > b
    · simp [h, ← ha, ← hb, min_eq_right h.le, max_eq_left h.le]
    · simp [h, ← ha, ← hb, min_eq_left (not_lt.mp h), max_eq_right (not_lt.mp h)]
  obtain ⟨s1, s2⟩ := pick _ _ _ _ hs0 hs1
  obtain ⟨t1, t2⟩ := pick _ _ _ _ ht0 ht1
  unfold overlap
  simp only [sort2_eq]
  refine ⟨?_, ?_, ?_, ?_⟩
  · split_ifs <;> simp
  · split_ifs <;> simp
  · by_cases h : min t.isect0 t.isect1 < min s.isect0 s.isect1
    · rw [if_pos h, max_eq_left h.le]; exact s1
    · rw [if_neg h, max_eq_right (not_lt.mp h)]; exact t1
  · by_cases h : min t.isect0 t.isect1 < min s.isect0 s.isect1
    · rw [if_pos h]
      by_cases h' : max t.isect0 t.isect1 < max s.isect0 s.isect1
      · simp only [if_pos h', min_eq_right h'.le]; exact t2
      · simp only [if_neg h', min_eq_left (not_lt.mp h')]; exact s2
    · rw [if_neg h]
      by_cases h' : max t.isect0 t.isect1 > max s.isect0 s.isect1
      · simp only [if_pos h', min_eq_left h'.le]; exact s2
      · simp only [if_neg h', min_eq_right (not_lt.mp h')]; exact t2

theorem btw_seg (e f x : Vec) : Btw e f x ↔ x ∈ segment ℝ e f := (mem_segment _ _ _).symm

theorem btw_coord {e f : Vec} (i : Fin 3) {y : ℝ} (h1 : min (e i) (f i) ≤ y) (h2 : y ≤ max (e i) (f i)) :
    ∃ x, Btw e f x ∧ x i = y := by
  have h : ∃ s : ℝ, 0 ≤ s ∧ s ≤ 1 ∧ e i + s * (f i - e i) = y := by
    rcases lt_trichotomy (e i) (f i) with h | h | h
    · rw [min_eq_left h.le] at h1; rw [max_eq_right h.le] at h2
      have : 0 < f i - e i := by linarith
      exact ⟨(y - e i) / (f i - e i), div_nonneg (by linarith) this.le, by rw [div_le_one this]; linarith,
        by rw [div_mul_cancel₀ _ this.ne']; ring⟩
    · rw [h, min_self] at h1; rw [h, max_self] at h2
      exact ⟨0, le_rfl, zero_le_one, by linarith⟩
    · rw [min_eq_right h.le] at h1; rw [max_eq_left h.le] at h2
      have : f i - e i < 0 := by linarith
      exact ⟨(y - e i) / (f i - e i), div_nonneg_of_nonpos (by linarith) this.le,
        by rw [div_le_one_of_neg this]; linarith, by rw [div_mul_cancel₀ _ this.ne]; ring⟩
  obtain ⟨s, s0, s1, e⟩ := h
  exact ⟨_, ⟨s, s0, s1, fun _ => rfl⟩, e⟩

theorem btw_range {e f x : Vec} (i : Fin 3) (h : Btw e f x) : min (e i) (f i) ≤ x i ∧ x i ≤ max (e i) (f i) := by
  obtain ⟨s, h0, h1, ex⟩ := h
  rw [ex i]
  rcases le_total (e i) (f i) with h | h
  · rw [min_eq_left h, max_eq_right h]
    constructor <;> nlinarith
  · rw [min_eq_right h, max_eq_left h]
    constructor <;> nlinarith

theorem btw_convex {e f x y z : Vec} (hx : Btw e f x) (hy : Btw e f y) (hz : Btw x y z) : Btw e f z := by
  rw [btw_seg] at *
  exact (convex_segment e f).segment_subset hx hy hz

theorem btw_left (e f : Vec) : Btw e f e := ⟨0, le_rfl, zero_le_one, fun i => by ring⟩
theorem btw_right (e f : Vec) : Btw e f f := ⟨1, zero_le_one, le_rfl, fun i => by ring⟩

/-- The segment found is the common part of the two sections. -/
theorem overlap_segment (s t : Section) (i : Fin 3) (hs0 : s.isect0 = s.point0 i) (hs1 : s.isect1 = s.point1 i)
    (ht0 : t.isect0 = t.point0 i) (ht1 : t.isect1 = t.point1 i)
    (inj : ∀ x y, Btw s.point0 s.point1 x → Btw t.point0 t.point1 y → x i = y i → x = y)
    (h1 : min t.isect0 t.isect1 ≤ max s.isect0 s.isect1) (h2 : min s.isect0 s.isect1 ≤ max t.isect0 t.isect1) (x : Vec) :
    x ∈ segment ℝ (overlap s t).1 (overlap s t).2 ↔ Btw s.point0 s.point1 x ∧ Btw t.point0 t.point1 x := by
  obtain ⟨hP, hQ, eP, eQ⟩ := overlap_spec s t i hs0 hs1 ht0 ht1
  rw [hs0, hs1, ht0, ht1] at h1 h2 eP eQ
  generalize (overlap s t).1 = P at *
  generalize (overlap s t).2 = Q at *
  -- a point of one of the sections with a coordinate in the range of both is in both
  have both : ∀ R : Vec, (R = s.point0 ∨ R = s.point1 ∨ R = t.point0 ∨ R = t.point1) →
      min (s.point0 i) (s.point1 i) ≤ R i → R i ≤ max (s.point0 i) (s.point1 i) →
      min (t.point0 i) (t.point1 i) ≤ R i → R i ≤ max (t.point0 i) (t.point1 i) →
      Btw s.point0 s.point1 R ∧ Btw t.point0 t.point1 R := by
    intro R hR a1 a2 b1 b2
    obtain ⟨y, hy, ey⟩ := btw_coord i b1 b2
    obtain ⟨z, hz, ez⟩ := btw_coord i a1 a2
    rcases hR with rfl | rfl | rfl | rfl
    · have := inj _ _ (btw_left _ _) hy ey.symm
      exact ⟨btw_left _ _, this ▸ hy⟩
    · have := inj _ _ (btw_right _ _) hy ey.symm
      exact ⟨btw_right _ _, this ▸ hy⟩
    · have := inj _ _ hz (btw_left _ _) ez
      exact ⟨this ▸ hz, btw_left _ _⟩
    · have := inj _ _ hz (btw_right _ _) ez
      exact ⟨this ▸ hz, btw_right _ _⟩
  have mm : ∀ a b : ℝ, min a b ≤ max a b := fun a b => min_le_max
  have bP := both P hP (by rw [eP]; exact le_max_left _ _) (by rw [eP]; exact max_le (mm _ _) h1)
    (by rw [eP]; exact le_max_right _ _) (by rw [eP]; exact max_le h2 (mm _ _))
  have bQ := both Q hQ (by rw [eQ]; exact le_min (mm _ _) h2) (by rw [eQ]; exact min_le_left _ _)
    (by rw [eQ]; exact le_min h1 (mm _ _)) (by rw [eQ]; exact min_le_right _ _)
  rw [← btw_seg]
  constructor
  · intro hx
    exact ⟨btw_convex bP.1 bQ.1 hx, btw_convex bP.2 bQ.2 hx⟩
  · rintro ⟨ha, hb⟩
    have ra := btw_range i ha
    have rb := btw_range i hb
    have lo : P i ≤ x i := by rw [eP]; exact max_le ra.1 rb.1
    have hi : x i ≤ Q i := by rw [eQ]; exact le_min ra.2 rb.2
    obtain ⟨z, hz, ez⟩ := btw_coord (e := P) (f := Q) i (y := x i) ((min_le_left _ _).trans lo) (hi.trans (le_max_right _ _))
    have := inj _ _ (btw_convex bP.1 bQ.1 hz) hb ez
    exact this ▸ hz

/-! ### the two functions -/

theorem clear_side {eps : ℝ} {v0 v1 v2 u0 u1 u2 : Vec} (h : Clear eps v0 v1 v2 u0 u1 u2) :
    side eps (normal v0 v1 v2) v0 u0 = tetra v0 v1 v2 u0 ∧ side eps (normal v0 v1 v2) v0 u1 = tetra v0 v1 v2 u1 ∧
      side eps (normal v0 v1 v2) v0 u2 = tetra v0 v1 v2 u2 :=
  ⟨side_eq (h _ (by simp)), side_eq (h _ (by simp)), side_eq (h _ (by simp))⟩

/-- The four outcomes. -/
theorem outcomes (v0 v1 v2 u0 u1 u2 : Vec) (hv : Proper v0 v1 v2) (hu : Proper u0 u1 u2) :
    ((tetra v0 v1 v2 u0 * tetra v0 v1 v2 u1 > 0 ∧ tetra v0 v1 v2 u0 * tetra v0 v1 v2 u2 > 0) ∨
      (¬ (tetra v0 v1 v2 u0 * tetra v0 v1 v2 u1 > 0 ∧ tetra v0 v1 v2 u0 * tetra v0 v1 v2 u2 > 0) ∧
        (tetra u0 u1 u2 v0 * tetra u0 u1 u2 v1 > 0 ∧ tetra u0 u1 u2 v0 * tetra u0 u1 u2 v2 > 0))) ∨
    ((tetra v0 v1 v2 u0 = 0 ∧ tetra v0 v1 v2 u1 = 0 ∧ tetra v0 v1 v2 u2 = 0) ∧
      (tetra u0 u1 u2 v0 = 0 ∧ tetra u0 u1 u2 v1 = 0 ∧ tetra u0 u1 u2 v2 = 0)) ∨
    Crossing v0 v1 v2 u0 u1 u2 := by
  by_cases c1 : tetra v0 v1 v2 u0 * tetra v0 v1 v2 u1 > 0 ∧ tetra v0 v1 v2 u0 * tetra v0 v1 v2 u2 > 0
  · exact Or.inl (Or.inl c1)
  by_cases c2 : tetra u0 u1 u2 v0 * tetra u0 u1 u2 v1 > 0 ∧ tetra u0 u1 u2 v0 * tetra u0 u1 u2 v2 > 0
  · exact Or.inl (Or.inr ⟨c1, c2⟩)
  right
  by_cases c3 : tetra v0 v1 v2 u0 = 0 ∧ tetra v0 v1 v2 u1 = 0 ∧ tetra v0 v1 v2 u2 = 0
  · exact Or.inl ⟨c3, coplanar_symm hv c3.1 c3.2.1 c3.2.2⟩
  by_cases c4 : tetra u0 u1 u2 v0 = 0 ∧ tetra u0 u1 u2 v1 = 0 ∧ tetra u0 u1 u2 v2 = 0
  · exact absurd (coplanar_symm hu c4.1 c4.2.1 c4.2.2) c3
  exact Or.inr ⟨hv, c2, c1, c4, c3⟩

theorem apart {v0 v1 v2 u0 u1 u2 : Vec}
    (h : (tetra v0 v1 v2 u0 * tetra v0 v1 v2 u1 > 0 ∧ tetra v0 v1 v2 u0 * tetra v0 v1 v2 u2 > 0) ∨
      (¬ (tetra v0 v1 v2 u0 * tetra v0 v1 v2 u1 > 0 ∧ tetra v0 v1 v2 u0 * tetra v0 v1 v2 u2 > 0) ∧
        (tetra u0 u1 u2 v0 * tetra u0 u1 u2 v1 > 0 ∧ tetra u0 u1 u2 v0 * tetra u0 u1 u2 v2 > 0))) :
    ¬ Meets (convexHull ℝ {v0, v1, v2}) (convexHull ℝ {u0, u1, u2}) := by
  rintro ⟨x, hx, hy⟩
  rcases h with h | ⟨-, h⟩
  · exact reject h (sec_iff.mpr ⟨hy, hull_zero hx⟩)
  · exact reject h (sec_iff.mpr ⟨hx, hull_zero hy⟩)

theorem intersects_iff {eps : ℝ} {v0 v1 v2 u0 u1 u2 : Vec} (hv : Proper v0 v1 v2) (hu : Proper u0 u1 u2)
    (cu : Clear eps v0 v1 v2 u0 u1 u2) (cv : Clear eps u0 u1 u2 v0 v1 v2) :
    intersects eps v0 v1 v2 u0 u1 u2 = true ↔ Meets (convexHull ℝ {v0, v1, v2}) (convexHull ℝ {u0, u1, u2}) := by
  obtain ⟨a0, a1, a2⟩ := clear_side cu
  obtain ⟨b0, b1, b2⟩ := clear_side cv
  unfold intersects
  simp only [a0, a1, a2, b0, b1, b2]
  rcases outcomes v0 v1 v2 u0 u1 u2 hv hu with h | ⟨⟨z0, z1, z2⟩, ⟨y0, y1, y2⟩⟩ | h
  · have hno := apart h
    rcases h with h | ⟨h, h'⟩
    · simp [h, hno]
    · simp [h, h', hno]
  · rw [if_neg (by rw [z0]; simp), if_neg (by rw [y0]; simp), y0, y1, y2]
    simp only [(intervals_zero v0 v1 v2 _).1]
    exact coplanar_iff hv hu z0 z1 z2
  · rw [if_neg h.hnu, if_neg h.hnv]
    obtain ⟨p, q, r, p', q', r', dp, dq, dr, dp', dq', dr', hp, hp', hx, hy, e1, e2, -, -⟩ := h.spec
    rw [e1, e2]
    simp only
    have hmeet := h.meets hx hy
    simp only at hmeet
    rw [← hmeet, ← overlap_iff]
    obtain ⟨n1, n2, n3⟩ := pivot_ne hp
    obtain ⟨n1', n2', n3'⟩ := pivot_ne hp'
    generalize longestAxis (cross (normal v0 v1 v2) (normal u0 u1 u2)) = i
    have hk : 0 < (dp - dq) * (dp - dr) * ((dp' - dq') * (dp' - dr')) := mul_pos n3 n3'
    set k := (dp - dq) * (dp - dr) * ((dp' - dq') * (dp' - dr')) with hkd
    have s1 : p i * k + (q i - p i) * dp * (dp - dr) * ((dp' - dq') * (dp' - dr'))
        = k * (dp / (dp - dq) * (q i - p i) + p i) := by
      have : k * (dp / (dp - dq)) = dp * (dp - dr) * ((dp' - dq') * (dp' - dr')) := by
        rw [hkd]; field_simp
      linear_combination (-(q i - p i)) * this
    have s2 : p i * k + (r i - p i) * dp * (dp - dq) * ((dp' - dq') * (dp' - dr'))
        = k * (p i + dp / (dp - dr) * (r i - p i)) := by
      have : k * (dp / (dp - dr)) = dp * (dp - dq) * ((dp' - dq') * (dp' - dr')) := by
        rw [hkd]; field_simp
      linear_combination (-(r i - p i)) * this
    have t1 : p' i * k + (q' i - p' i) * dp' * ((dp - dq) * (dp - dr)) * (dp' - dr')
        = k * (dp' / (dp' - dq') * (q' i - p' i) + p' i) := by
      have : k * (dp' / (dp' - dq')) = dp' * (dp' - dr') * ((dp - dq) * (dp - dr)) := by
        rw [hkd]; field_simp
      linear_combination (-(q' i - p' i)) * this
    have t2 : p' i * k + (r' i - p' i) * dp' * ((dp - dq) * (dp - dr)) * (dp' - dq')
        = k * (p' i + dp' / (dp' - dr') * (r' i - p' i)) := by
      have : k * (dp' / (dp' - dr')) = dp' * (dp' - dq') * ((dp - dq) * (dp - dr)) := by
        rw [hkd]; field_simp
      linear_combination (-(r' i - p' i)) * this
    rw [s1, s2, t1, t2, sort_scale hk, sort_scale hk]
    simp only [mul_lt_mul_iff_right₀ hk]
    split_ifs with h
    · simp [h]
    · simp [h]

theorem intersectsSeg_eq {eps : ℝ} {v0 v1 v2 u0 u1 u2 : Vec} (hv : Proper v0 v1 v2) (hu : Proper u0 u1 u2)
    (cu : Clear eps v0 v1 v2 u0 u1 u2) (cv : Clear eps u0 u1 u2 v0 v1 v2) :
    (¬ Meets (convexHull ℝ {v0, v1, v2}) (convexHull ℝ {u0, u1, u2}) ∧
      intersectsSeg eps v0 v1 v2 u0 u1 u2 = some (false, none)) ∨
    (Meets (convexHull ℝ {v0, v1, v2}) (convexHull ℝ {u0, u1, u2}) ∧ Coplanar v0 v1 v2 u0 u1 u2 ∧
      intersectsSeg eps v0 v1 v2 u0 u1 u2 = some (true, none)) ∨
    (Meets (convexHull ℝ {v0, v1, v2}) (convexHull ℝ {u0, u1, u2}) ∧ ¬ Coplanar v0 v1 v2 u0 u1 u2 ∧
      ∃ P Q, intersectsSeg eps v0 v1 v2 u0 u1 u2 = some (true, some (P, Q)) ∧
        segment ℝ P Q = convexHull ℝ {v0, v1, v2} ∩ convexHull ℝ {u0, u1, u2}) := by
  obtain ⟨a0, a1, a2⟩ := clear_side cu
  obtain ⟨b0, b1, b2⟩ := clear_side cv
  unfold intersectsSeg
  simp only [a0, a1, a2, b0, b1, b2]
  rcases outcomes v0 v1 v2 u0 u1 u2 hv hu with h | ⟨⟨z0, z1, z2⟩, ⟨y0, y1, y2⟩⟩ | h
  · have hno := apart h
    left
    refine ⟨hno, ?_⟩
    rcases h with h | ⟨h, h'⟩
    · rw [if_pos h]
    · rw [if_neg h, if_pos h']
  · rw [if_neg (by rw [z0]; simp), if_neg (by rw [y0]; simp), y0, y1, y2]
    simp only [(intervals_zero v0 v1 v2 _).2]
    have hc : Coplanar v0 v1 v2 u0 u1 u2 := by
      rintro q (rfl | rfl | rfl)
      · exact z0
      · exact z1
      · exact z2
    have hi := coplanar_iff hv hu z0 z1 z2
    by_cases hm : Meets (convexHull ℝ {v0, v1, v2}) (convexHull ℝ {u0, u1, u2})
    · exact Or.inr (Or.inl ⟨hm, hc, by rw [hi.mpr hm]⟩)
    · refine Or.inl ⟨hm, ?_⟩
      rw [Bool.eq_false_iff.mpr (fun e => hm (hi.mp e))]
  · rw [if_neg h.hnu, if_neg h.hnv]
    have hc : ¬ Coplanar v0 v1 v2 u0 u1 u2 := fun c => h.hzu ⟨c _ (by simp), c _ (by simp), c _ (by simp)⟩
    obtain ⟨p, q, r, p', q', r', dp, dq, dr, dp', dq', dr', hp, hp', hx, hy, -, -, e1, e2⟩ := h.spec
    rw [e1, e2]
    have hmeet := h.meets hx hy
    have hax := h.axis
    generalize longestAxis (cross (normal v0 v1 v2) (normal u0 u1 u2)) = i at *
    simp only at hmeet
    rw [← overlap_iff] at hmeet
    have so : ∀ a b : ℝ, sort (a, b) = (min a b, max a b) := by
      intro a b
      unfold sort
      split
      · rename_i h; rw [min_eq_right (le_of_lt h), max_eq_left (le_of_lt h)]
      · rename_i h; rw [min_eq_left (not_lt.mp h), max_eq_right (not_lt.mp h)]
    rw [so, so] at hmeet
    have k0 : (isect2 p q r (p i) (q i) (r i) dp dq dr).isect0 = (isect2 p q r (p i) (q i) (r i) dp dq dr).point0 i := by
      simp only [isect2]; ring
    have k1 : (isect2 p q r (p i) (q i) (r i) dp dq dr).isect1 = (isect2 p q r (p i) (q i) (r i) dp dq dr).point1 i := by
      simp only [isect2]; ring
    have l0 : (isect2 p' q' r' (p' i) (q' i) (r' i) dp' dq' dr').isect0
        = (isect2 p' q' r' (p' i) (q' i) (r' i) dp' dq' dr').point0 i := by
      simp only [isect2]; ring
    have l1 : (isect2 p' q' r' (p' i) (q' i) (r' i) dp' dq' dr').isect1
        = (isect2 p' q' r' (p' i) (q' i) (r' i) dp' dq' dr').point1 i := by
      simp only [isect2]; ring
    have hs := overlap_segment _ _ i k0 k1 l0 l1 (by
      intro x y hbx hby e
      have h1 := (hx x).mp hbx
      have h2 := (hy y).mp hby
      exact point_inj hax ((hull_zero h1.1).trans h2.2.symm) (h1.2.trans (hull_zero h2.1).symm) e)
    set S := isect2 p q r (p i) (q i) (r i) dp dq dr with hS
    set T := isect2 p' q' r' (p' i) (q' i) (r' i) dp' dq' dr' with hT
    have hm' : (¬ (max S.isect0 S.isect1 < min T.isect0 T.isect1 ∨ max T.isect0 T.isect1 < min S.isect0 S.isect1)) ↔
        Meets (convexHull ℝ {v0, v1, v2}) (convexHull ℝ {u0, u1, u2}) := by
      rw [k0, k1, l0, l1]; exact hmeet
    simp only [sort2_eq]
    by_cases hm : Meets (convexHull ℝ {v0, v1, v2}) (convexHull ℝ {u0, u1, u2})
    · have hov := hm'.mpr hm
      rw [if_neg hov]
      refine Or.inr (Or.inr ⟨hm, hc, (overlap S T).1, (overlap S T).2, by rfl, ?_⟩)
      push Not at hov
      ext x
      rw [hs hov.1 hov.2 x]
      constructor
      · rintro ⟨m1, m2⟩
        exact ⟨((hx x).mp m1).1, ((hy x).mp m2).1⟩
      · rintro ⟨m1, m2⟩
        exact ⟨(hx x).mpr ⟨m1, hull_zero m2⟩, (hy x).mpr ⟨m2, hull_zero m1⟩⟩
    · left
      refine ⟨hm, ?_⟩
      have : max S.isect0 S.isect1 < min T.isect0 T.isect1 ∨ max T.isect0 T.isect1 < min S.isect0 S.isect1 := by
        by_contra hov
        exact hm (hm'.mp hov)
      rw [if_pos this]

end Verif.Proofs.TriTri
