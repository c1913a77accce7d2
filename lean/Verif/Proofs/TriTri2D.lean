import Mathlib.Data.Real.Basic
import Mathlib.Tactic.Linarith
import Mathlib.Tactic.LinearCombination
import Mathlib.Tactic.FieldSimp
import Mathlib.Tactic.Positivity
import Mathlib.Tactic.Ring
import Mathlib.Tactic.Tauto

/-! # Two triangles in the plane -/

namespace Verif.Proofs.TriTri

/-- A point of the plane. -/
abbrev P2 := ℝ × ℝ

/-- Twice the signed area. -/
def area (p q r : P2) : ℝ := (q.1 - p.1) * (r.2 - p.2) - (q.2 - p.2) * (r.1 - p.1)

/-- The point with the given weights. -/
def At (p q r : P2) (a b c : ℝ) (x : P2) : Prop :=
  a + b + c = 1 ∧ x.1 = a * p.1 + b * q.1 + c * r.1 ∧ x.2 = a * p.2 + b * q.2 + c * r.2

/-- The triangle. -/
def In2 (p q r x : P2) : Prop := ∃ a b c, 0 ≤ a ∧ 0 ≤ b ∧ 0 ≤ c ∧ At p q r a b c x

/-- The edge. -/
def Seg2 (p q x : P2) : Prop := ∃ t, 0 ≤ t ∧ t ≤ 1 ∧ x.1 = p.1 + t * (q.1 - p.1) ∧ x.2 = p.2 + t * (q.2 - p.2)

/-- The cross product of the directions. -/
def para (p q p' q' : P2) : ℝ := (q.1 - p.1) * (q'.2 - p'.2) - (q.2 - p.2) * (q'.1 - p'.1)

/-- Segments that are not parallel and share a point. -/
def Cross (p q p' q' : P2) : Prop := para p q p' q' ≠ 0 ∧ ∃ x, Seg2 p q x ∧ Seg2 p' q' x

/-- `q`, `r`, `s` are the corners in some order. -/
def Perm (u0 u1 u2 p q r : P2) : Prop :=
  (p = u0 ∧ q = u1 ∧ r = u2) ∨ (p = u1 ∧ q = u2 ∧ r = u0) ∨ (p = u2 ∧ q = u0 ∧ r = u1) ∨
  (p = u1 ∧ q = u0 ∧ r = u2) ∨ (p = u2 ∧ q = u1 ∧ r = u0) ∨ (p = u0 ∧ q = u2 ∧ r = u1)

theorem seg_symm {p q x : P2} (h : Seg2 p q x) : Seg2 q p x := by
  obtain ⟨t, h0, h1, e1, e2⟩ := h
  exact ⟨1 - t, by linarith, by linarith, by rw [e1]; ring, by rw [e2]; ring⟩

theorem seg_left (p q : P2) : Seg2 p q p := ⟨0, le_rfl, zero_le_one, by ring, by ring⟩
theorem seg_right (p q : P2) : Seg2 p q q := ⟨1, zero_le_one, le_rfl, by ring, by ring⟩

theorem cross_symm {p q p' q' : P2} (h : Cross p q p' q') : Cross q p p' q' := by
  obtain ⟨h, x, hx, hy⟩ := h
  refine ⟨fun e => h ?_, x, seg_symm hx, hy⟩
  unfold para at *; linear_combination -e

theorem cross_symm' {p q p' q' : P2} (h : Cross p q p' q') : Cross p q q' p' := by
  obtain ⟨h, x, hx, hy⟩ := h
  refine ⟨fun e => h ?_, x, hx, seg_symm hy⟩
  unfold para at *; linear_combination -e

theorem cross_swap {p q p' q' : P2} (h : Cross p q p' q') : Cross p' q' p q := by
  obtain ⟨h, x, hx, hy⟩ := h
  refine ⟨fun e => h ?_, x, hy, hx⟩
  unfold para at *; linear_combination -e

theorem perm_area {u0 u1 u2 p q r : P2} (h : area u0 u1 u2 ≠ 0) (hp : Perm u0 u1 u2 p q r) : area p q r ≠ 0 := by
  have hc : area p q r = area u0 u1 u2 ∨ area p q r = -area u0 u1 u2 := by
    rcases hp with ⟨rfl, rfl, rfl⟩ | ⟨rfl, rfl, rfl⟩ | ⟨rfl, rfl, rfl⟩ | ⟨rfl, rfl, rfl⟩ | ⟨rfl, rfl, rfl⟩ | ⟨rfl, rfl, rfl⟩ <;>
      unfold area
    · left; ring
    · left; ring
    · left; ring
    · right; ring
    · right; ring
    · right; ring
  rcases hc with e | e <;> rw [e]
  · exact h
  · exact neg_ne_zero.mpr h

theorem perm_swap {u0 u1 u2 p q r : P2} (hp : Perm u0 u1 u2 p q r) : Perm u0 u1 u2 q p r := by
  unfold Perm at *; tauto

theorem perm_rot {u0 u1 u2 p q r : P2} (hp : Perm u0 u1 u2 p q r) : Perm u0 u1 u2 q r p := by
  unfold Perm at *; tauto

/-- If an end of one edge lies on another edge, two edges that are not parallel meet. -/
theorem end_on {p q r p' q' : P2} (h : area p q r ≠ 0) (hn : p' ≠ q') (hx : Seg2 p' q' p) :
    Cross p q p' q' ∨ Cross p r p' q' := by
  by_cases h1 : para p q p' q' = 0
  · right
    refine ⟨fun h2 => ?_, p, seg_left _ _, hx⟩
    unfold para at h1 h2
    unfold area at h
    have e1 : ((q.1 - p.1) * (r.2 - p.2) - (q.2 - p.2) * (r.1 - p.1)) * (q'.1 - p'.1) = 0 := by
      linear_combination (r.1 - p.1) * h1 - (q.1 - p.1) * h2
    have e2 : ((q.1 - p.1) * (r.2 - p.2) - (q.2 - p.2) * (r.1 - p.1)) * (q'.2 - p'.2) = 0 := by
      linear_combination (r.2 - p.2) * h1 - (q.2 - p.2) * h2
    have a1 := (mul_eq_zero.mp e1).resolve_left h
    have a2 := (mul_eq_zero.mp e2).resolve_left h
    exact hn (Prod.ext (by linarith) (by linarith))
  · left
    exact ⟨h1, p, seg_left _ _, hx⟩

theorem area_ne {p q r : P2} (h : area p q r ≠ 0) : p ≠ q := by
  rintro rfl
  exact h (by unfold area; ring)

/-- Two parallel segments that share a point: an end of one lies on the other. -/
theorem parallel_ends {p q p' q' x : P2} (hn : p ≠ q) (hn' : p' ≠ q') (h : para p q p' q' = 0) (hx : Seg2 p q x)
    (hy : Seg2 p' q' x) : Seg2 p q p' ∨ Seg2 p q q' ∨ Seg2 p' q' p := by
  obtain ⟨s, hs0, hs1, a1, a2⟩ := hx
  obtain ⟨t, ht0, ht1, b1, b2⟩ := hy
  unfold para at h
  -- `q' - p' = k (q - p)`
  obtain ⟨k, k1, k2⟩ : ∃ k, q'.1 - p'.1 = k * (q.1 - p.1) ∧ q'.2 - p'.2 = k * (q.2 - p.2) := by
    by_cases hq : q.1 - p.1 = 0
    · have hq2 : q.2 - p.2 ≠ 0 := fun e => hn (Prod.ext (by linarith) (by linarith))
      have : q'.1 - p'.1 = 0 := by
        have : (q.2 - p.2) * (q'.1 - p'.1) = 0 := by linear_combination -h + (q'.2 - p'.2) * hq
        exact (mul_eq_zero.mp this).resolve_left hq2
      exact ⟨(q'.2 - p'.2) / (q.2 - p.2), by rw [this, hq]; ring, by field_simp⟩
    · refine ⟨(q'.1 - p'.1) / (q.1 - p.1), by field_simp, ?_⟩
      field_simp
      linear_combination h
  -- the parameters of `p'` and `q'` on the first line are `s - t k` and `s + (1 - t) k`
  have hk : k ≠ 0 := by
    rintro rfl
    exact hn' (Prod.ext (by linarith) (by linarith))
  have p1 : p'.1 = p.1 + (s - t * k) * (q.1 - p.1) := by linear_combination a1 - b1 - t * k1
  have p2 : p'.2 = p.2 + (s - t * k) * (q.2 - p.2) := by linear_combination a2 - b2 - t * k2
  have q1 : q'.1 = p.1 + (s + (1 - t) * k) * (q.1 - p.1) := by linear_combination a1 - b1 + (1 - t) * k1
  have q2 : q'.2 = p.2 + (s + (1 - t) * k) * (q.2 - p.2) := by linear_combination a2 - b2 + (1 - t) * k2
  by_cases c1 : 0 ≤ s - t * k ∧ s - t * k ≤ 1
  · left; exact ⟨_, c1.1, c1.2, p1, p2⟩
  by_cases c2 : 0 ≤ s + (1 - t) * k ∧ s + (1 - t) * k ≤ 1
  · right; left; exact ⟨_, c2.1, c2.2, q1, q2⟩
  right; right
  -- both ends are outside, on different sides of `p`
  have key : 0 ≤ (t * k - s) / k ∧ (t * k - s) / k ≤ 1 := by
    rcases lt_or_gt_of_ne hk with hk | hk
    · have h1 : 0 ≤ s - t * k := by nlinarith
      have h2 : s + (1 - t) * k ≤ 1 := by nlinarith
      have h3 : s + (1 - t) * k < 0 := by
        by_contra hc; exact c2 ⟨not_lt.mp hc, h2⟩
      constructor
      · rw [le_div_iff_of_neg hk]; linarith
      · rw [div_le_one_of_neg hk]; linarith
    · have h1 : s - t * k ≤ 1 := by nlinarith
      have h2 : s - t * k < 0 := by
        by_contra hc; exact c1 ⟨not_lt.mp hc, h1⟩
      have h3 : 0 ≤ s + (1 - t) * k := by nlinarith
      constructor
      · rw [le_div_iff₀ hk]; linarith
      · rw [div_le_one hk]; linarith
  refine ⟨(t * k - s) / k, key.1, key.2, ?_, ?_⟩
  · rw [k1, p1]; field_simp; ring
  · rw [k2, p2]; field_simp; ring

/-- Two edges that share a point: some two edges cross. -/
theorem edges_cross {p q r p' q' r' x : P2} (h : area p q r ≠ 0) (h' : area p' q' r' ≠ 0) (hx : Seg2 p q x)
    (hy : Seg2 p' q' x) : ∃ a b c a' b' c', Perm p q r a b c ∧ Perm p' q' r' a' b' c' ∧ Cross a b a' b' := by
  have hn := area_ne h
  have hn' := area_ne h'
  by_cases hp : para p q p' q' = 0
  · rcases parallel_ends hn hn' hp hx hy with e | e | e
    · rcases end_on h' hn e with c | c
      · exact ⟨p, q, r, p', q', r', by simp [Perm], by simp [Perm], cross_swap c⟩
      · exact ⟨p, q, r, p', r', q', by simp [Perm], by simp [Perm], cross_swap c⟩
    · have h2 : area q' p' r' ≠ 0 := perm_area h' (by simp [Perm])
      rcases end_on h2 hn e with c | c
      · exact ⟨p, q, r, q', p', r', by simp [Perm], by simp [Perm], cross_swap c⟩
      · exact ⟨p, q, r, q', r', p', by simp [Perm], by simp [Perm], cross_swap c⟩
    · rcases end_on h hn' e with c | c
      · exact ⟨p, q, r, p', q', r', by simp [Perm], by simp [Perm], c⟩
      · exact ⟨p, r, q, p', q', r', by simp [Perm], by simp [Perm], c⟩
  · exact ⟨p, q, r, p', q', r', by simp [Perm], by simp [Perm], hp, x, hx, hy⟩

/-- Every point of the plane has weights. -/
theorem weights {p q r : P2} (h : area p q r ≠ 0) (x : P2) :
    At p q r (area q r x / area p q r) (area r p x / area p q r) (area p q x / area p q r) x := by
  refine ⟨?_, ?_, ?_⟩
  · rw [← add_div, ← add_div, div_eq_one_iff_eq h]; unfold area; ring
  all_goals
    rw [div_mul_eq_mul_div, div_mul_eq_mul_div, div_mul_eq_mul_div, ← add_div, ← add_div, eq_div_iff h]
    unfold area; ring

/-- A point with a weight zero is on an edge. -/
theorem on_edge {p q r x : P2} {a b c : ℝ} (ha : 0 ≤ a) (hb : 0 ≤ b) (hc : 0 ≤ c) (h : At p q r a b c x)
    (h0 : a = 0 ∨ b = 0 ∨ c = 0) : ∃ p' q' r', Perm p q r p' q' r' ∧ Seg2 p' q' x := by
  obtain ⟨hs, h1, h2⟩ := h
  rcases h0 with rfl | rfl | rfl
  · refine ⟨q, r, p, by simp [Perm], c, hc, by linarith, ?_, ?_⟩
    · rw [h1]; linear_combination q.1 * hs
    · rw [h2]; linear_combination q.2 * hs
  · refine ⟨r, p, q, by simp [Perm], a, ha, by linarith, ?_, ?_⟩
    · rw [h1]; linear_combination r.1 * hs
    · rw [h2]; linear_combination r.2 * hs
  · refine ⟨p, q, r, by simp [Perm], b, hb, by linarith, ?_, ?_⟩
    · rw [h1]; linear_combination p.1 * hs
    · rw [h2]; linear_combination p.2 * hs

/-- The first parameter at which one of three falling lines reaches zero. -/
theorem first_zero {a b c a' b' c' : ℝ} (ha : 0 ≤ a) (hb : 0 ≤ b) (hc : 0 ≤ c) (h : a' < 0 ∨ b' < 0 ∨ c' < 0) :
    ∃ t, 0 ≤ t ∧ t ≤ 1 ∧ 0 ≤ a + t * (a' - a) ∧ 0 ≤ b + t * (b' - b) ∧ 0 ≤ c + t * (c' - c) ∧
      (a + t * (a' - a) = 0 ∨ b + t * (b' - b) = 0 ∨ c + t * (c' - c) = 0) := by
  -- two lines first
  have one : ∀ {a a' : ℝ}, 0 ≤ a → a' < 0 → ∃ t, 0 ≤ t ∧ t ≤ 1 ∧ a + t * (a' - a) = 0 := by
    intro a a' ha h
    have : 0 < a - a' := by linarith
    refine ⟨a / (a - a'), by positivity, by rw [div_le_one this]; linarith, ?_⟩
    field_simp; ring
  have lin : ∀ {a a' s t : ℝ}, 0 ≤ a → 0 ≤ s → s ≤ t → 0 ≤ a + t * (a' - a) → 0 ≤ a + s * (a' - a) := by
    intro a a' s t ha hs hst h
    by_cases hd : 0 ≤ a' - a
    · positivity
    · nlinarith
  -- among the parameters at which some line is at or below zero, reduce
  have step : ∀ {a a' t : ℝ}, 0 ≤ a → 0 ≤ t → t ≤ 1 → a + t * (a' - a) < 0 →
      ∃ s, 0 ≤ s ∧ s ≤ t ∧ a + s * (a' - a) = 0 := by
    intro a a' t ha ht ht1 h
    have hd : 0 < a - a' := by nlinarith
    refine ⟨a / (a - a'), by positivity, ?_, by field_simp; ring⟩
    rw [div_le_iff₀ hd]; nlinarith
  have main : ∀ {a a' b b' c c' : ℝ}, 0 ≤ a → 0 ≤ b → 0 ≤ c → a' < 0 →
      ∃ t, 0 ≤ t ∧ t ≤ 1 ∧ 0 ≤ a + t * (a' - a) ∧ 0 ≤ b + t * (b' - b) ∧ 0 ≤ c + t * (c' - c) ∧
        (a + t * (a' - a) = 0 ∨ b + t * (b' - b) = 0 ∨ c + t * (c' - c) = 0) := by
    intro a a' b b' c c' ha hb hc h
    obtain ⟨t, t0, t1, ht⟩ := one ha h
    by_cases h1 : 0 ≤ b + t * (b' - b)
    · by_cases h2 : 0 ≤ c + t * (c' - c)
      · exact ⟨t, t0, t1, ht.ge, h1, h2, Or.inl ht⟩
      · obtain ⟨s, s0, s1, hs⟩ := step hc t0 t1 (not_le.mp h2)
        exact ⟨s, s0, by linarith, lin ha s0 s1 ht.ge, lin hb s0 s1 h1, hs.ge, Or.inr (Or.inr hs)⟩
    · obtain ⟨s, s0, s1, hs⟩ := step hb t0 t1 (not_le.mp h1)
      have hs1 : s ≤ 1 := by linarith
      by_cases h2 : 0 ≤ c + s * (c' - c)
      · exact ⟨s, s0, hs1, lin ha s0 s1 ht.ge, hs.ge, h2, Or.inr (Or.inl hs)⟩
      · obtain ⟨u, u0, u1, hu⟩ := step hc s0 hs1 (not_le.mp h2)
        exact ⟨u, u0, by linarith, lin ha u0 (by linarith) ht.ge, lin hb u0 u1 hs.ge, hu.ge, Or.inr (Or.inr hu)⟩
  rcases h with h | h | h
  · exact main ha hb hc h
  · obtain ⟨t, t0, t1, x, y, z, e⟩ := main hb ha hc h
    exact ⟨t, t0, t1, y, x, z, by tauto⟩
  · obtain ⟨t, t0, t1, x, y, z, e⟩ := main hc ha hb h
    exact ⟨t, t0, t1, y, z, x, by tauto⟩

/-- On the way out of a triangle one crosses an edge. -/
theorem exit {p q r x y : P2} (h : area p q r ≠ 0) (hx : In2 p q r x) (hy : ¬ In2 p q r y) :
    ∃ z p' q' r', Seg2 x y z ∧ Perm p q r p' q' r' ∧ Seg2 p' q' z := by
  obtain ⟨a, b, c, ha, hb, hc, hs, e1, e2⟩ := hx
  have hw := weights h y
  set a' := area q r y / area p q r
  set b' := area r p y / area p q r
  set c' := area p q y / area p q r
  have hneg : a' < 0 ∨ b' < 0 ∨ c' < 0 := by
    by_contra hc
    push Not at hc
    exact hy ⟨a', b', c', hc.1, hc.2.1, hc.2.2, hw⟩
  obtain ⟨hs', f1, f2⟩ := hw
  obtain ⟨t, t0, t1, g1, g2, g3, gz⟩ := first_zero ha hb hc hneg
  refine ⟨(x.1 + t * (y.1 - x.1), x.2 + t * (y.2 - x.2)), ?_⟩
  obtain ⟨p', q', r', hp, hseg⟩ := on_edge (p := p) (q := q) (r := r) (x := (x.1 + t * (y.1 - x.1), x.2 + t * (y.2 - x.2))) g1 g2 g3
    ⟨by linear_combination (1 - t) * hs + t * hs', by simp only; linear_combination (1 - t) * e1 + t * f1,
      by simp only; linear_combination (1 - t) * e2 + t * f2⟩ gz
  exact ⟨p', q', r', ⟨t, t0, t1, rfl, rfl⟩, hp, hseg⟩

theorem in2_convex {p q r x y z : P2} (hx : In2 p q r x) (hy : In2 p q r y) (hz : Seg2 x y z) : In2 p q r z := by
  obtain ⟨a, b, c, ha, hb, hc, hs, e1, e2⟩ := hx
  obtain ⟨a', b', c', ha', hb', hc', hs', f1, f2⟩ := hy
  obtain ⟨t, t0, t1, g1, g2⟩ := hz
  have t2 : 0 ≤ 1 - t := by linarith
  refine ⟨(1 - t) * a + t * a', (1 - t) * b + t * b', (1 - t) * c + t * c', by positivity, by positivity, by positivity,
    ?_, ?_, ?_⟩
  · linear_combination (1 - t) * hs + t * hs'
  · rw [g1]; linear_combination (1 - t) * e1 + t * f1
  · rw [g2]; linear_combination (1 - t) * e2 + t * f2

theorem seg_convex {p q x y z : P2} (hx : Seg2 p q x) (hy : Seg2 p q y) (hz : Seg2 x y z) : Seg2 p q z := by
  obtain ⟨s, s0, s1, a1, a2⟩ := hx
  obtain ⟨t, t0, t1, b1, b2⟩ := hy
  obtain ⟨u, u0, u1, c1, c2⟩ := hz
  have u2 : 0 ≤ 1 - u := by linarith
  refine ⟨(1 - u) * s + u * t, by positivity, by nlinarith, ?_, ?_⟩
  · rw [c1]; linear_combination (1 - u) * a1 + u * b1
  · rw [c2]; linear_combination (1 - u) * a2 + u * b2

theorem in2_seg {u0 u1 u2 p q r x : P2} (hp : Perm u0 u1 u2 p q r) (hx : Seg2 p q x) : In2 u0 u1 u2 x := by
  obtain ⟨t, t0, t1, e1, e2⟩ := hx
  have t2 : 0 ≤ 1 - t := by linarith
  rcases hp with ⟨rfl, rfl, rfl⟩ | ⟨rfl, rfl, rfl⟩ | ⟨rfl, rfl, rfl⟩ | ⟨rfl, rfl, rfl⟩ | ⟨rfl, rfl, rfl⟩ | ⟨rfl, rfl, rfl⟩
  · exact ⟨1 - t, t, 0, t2, t0, le_rfl, by ring, by rw [e1]; ring, by rw [e2]; ring⟩
  · exact ⟨0, 1 - t, t, le_rfl, t2, t0, by ring, by rw [e1]; ring, by rw [e2]; ring⟩
  · exact ⟨t, 0, 1 - t, t0, le_rfl, t2, by ring, by rw [e1]; ring, by rw [e2]; ring⟩
  · exact ⟨t, 1 - t, 0, t0, t2, le_rfl, by ring, by rw [e1]; ring, by rw [e2]; ring⟩
  · exact ⟨0, t, 1 - t, le_rfl, t0, t2, by ring, by rw [e1]; ring, by rw [e2]; ring⟩
  · exact ⟨1 - t, 0, t, t2, le_rfl, t0, by ring, by rw [e1]; ring, by rw [e2]; ring⟩

/-- The point is inside, not on an edge. -/
def Inside (p q r x : P2) : Prop := ∃ a b c, 0 < a ∧ 0 < b ∧ 0 < c ∧ At p q r a b c x

/-- Some two edges cross. -/
def EdgesCross (v0 v1 v2 u0 u1 u2 : P2) : Prop :=
  ∃ a b c a' b' c', Perm v0 v1 v2 a b c ∧ Perm u0 u1 u2 a' b' c' ∧ Cross a b a' b'

theorem perm_trans {u0 u1 u2 p q r a b c : P2} (h : Perm u0 u1 u2 p q r) (h' : Perm p q r a b c) : Perm u0 u1 u2 a b c := by
  rcases h' with ⟨rfl, rfl, rfl⟩ | ⟨rfl, rfl, rfl⟩ | ⟨rfl, rfl, rfl⟩ | ⟨rfl, rfl, rfl⟩ | ⟨rfl, rfl, rfl⟩ | ⟨rfl, rfl, rfl⟩
  · exact h
  · exact perm_rot h
  · exact perm_rot (perm_rot h)
  · exact perm_swap h
  · exact perm_swap (perm_rot h)
  · exact perm_swap (perm_rot (perm_rot h))

theorem edgesCross_of {v0 v1 v2 u0 u1 u2 p q r p' q' r' x : P2} (hv : area v0 v1 v2 ≠ 0) (hu : area u0 u1 u2 ≠ 0)
    (hp : Perm v0 v1 v2 p q r) (hp' : Perm u0 u1 u2 p' q' r') (hx : Seg2 p q x) (hy : Seg2 p' q' x) :
    EdgesCross v0 v1 v2 u0 u1 u2 := by
  obtain ⟨a, b, c, a', b', c', h1, h2, h3⟩ := edges_cross (perm_area hv hp) (perm_area hu hp') hx hy
  exact ⟨a, b, c, a', b', c', perm_trans hp h1, perm_trans hp' h2, h3⟩

theorem edgesCross_symm {v0 v1 v2 u0 u1 u2 : P2} (h : EdgesCross u0 u1 u2 v0 v1 v2) : EdgesCross v0 v1 v2 u0 u1 u2 := by
  obtain ⟨a, b, c, a', b', c', h1, h2, h3⟩ := h
  exact ⟨a', b', c', a, b, c, h2, h1, cross_swap h3⟩

/-- A corner of one triangle in the other: it is inside, or edges cross. -/
theorem corner_in {v0 v1 v2 u0 u1 u2 : P2} (hv : area v0 v1 v2 ≠ 0) (hu : area u0 u1 u2 ≠ 0) (h : In2 u0 u1 u2 v0) :
    Inside u0 u1 u2 v0 ∨ EdgesCross v0 v1 v2 u0 u1 u2 := by
  obtain ⟨a, b, c, ha, hb, hc, hat⟩ := h
  by_cases h0 : a = 0 ∨ b = 0 ∨ c = 0
  · right
    obtain ⟨p', q', r', hp, hs⟩ := on_edge ha hb hc hat h0
    exact edgesCross_of hv hu (by simp [Perm] : Perm v0 v1 v2 v0 v1 v2) hp (seg_left _ _) hs
  · left
    push Not at h0
    exact ⟨a, b, c, lt_of_le_of_ne ha h0.1.symm, lt_of_le_of_ne hb h0.2.1.symm, lt_of_le_of_ne hc h0.2.2.symm, hat⟩

/-- Two triangles of the plane share a point exactly when two edges cross or one holds the first corner of the other. -/
theorem share_iff {v0 v1 v2 u0 u1 u2 : P2} (hv : area v0 v1 v2 ≠ 0) (hu : area u0 u1 u2 ≠ 0) :
    (∃ x, In2 v0 v1 v2 x ∧ In2 u0 u1 u2 x) ↔
      EdgesCross v0 v1 v2 u0 u1 u2 ∨ Inside u0 u1 u2 v0 ∨ Inside v0 v1 v2 u0 := by
  have self : ∀ p q r : P2, In2 p q r p := fun p q r => ⟨1, 0, 0, by norm_num, le_rfl, le_rfl, by norm_num, by ring, by ring⟩
  constructor
  · rintro ⟨x, hxv, hxu⟩
    by_cases h1 : In2 u0 u1 u2 v0
    · rcases corner_in hv hu h1 with h | h <;> tauto
    by_cases h2 : In2 v0 v1 v2 u0
    · rcases corner_in hu hv h2 with h | h
      · tauto
      · exact Or.inl (edgesCross_symm h)
    left
    obtain ⟨y, p', q', r', hxy, hp, hy⟩ := exit hu hxu h1
    have hyv : In2 v0 v1 v2 y := in2_convex hxv (self _ _ _) hxy
    -- an edge of the second triangle leaves the first one
    have leave : ∀ {a b c z w}, Perm u0 u1 u2 a b c → Seg2 a b z → Seg2 a b w → In2 v0 v1 v2 z → ¬ In2 v0 v1 v2 w →
        EdgesCross v0 v1 v2 u0 u1 u2 := by
      intro a b c z w hp hz hw hzi hwi
      obtain ⟨e, a', b', c', he, hp', he'⟩ := exit hv hzi hwi
      exact edgesCross_of hv hu hp' hp he' (seg_convex hz hw he)
    by_cases e1 : p' = u0
    · exact leave hp hy (seg_left _ _) hyv (e1 ▸ h2)
    by_cases e2 : q' = u0
    · exact leave hp hy (seg_right _ _) hyv (e2 ▸ h2)
    have e3 : r' = u0 := by
      rcases hp with ⟨rfl, rfl, rfl⟩ | ⟨rfl, rfl, rfl⟩ | ⟨rfl, rfl, rfl⟩ | ⟨rfl, rfl, rfl⟩ | ⟨rfl, rfl, rfl⟩ | ⟨rfl, rfl, rfl⟩ <;>
        first | rfl | exact absurd rfl e1 | exact absurd rfl e2
    by_cases h3 : In2 v0 v1 v2 p'
    · refine leave (a := p') (b := r') (c := q') (perm_trans hp (by simp [Perm])) (seg_left _ _) (seg_right _ _) h3 (e3 ▸ h2)
    · exact leave hp hy (seg_left _ _) hyv h3
  · rintro (⟨a, b, c, a', b', c', h1, h2, -, x, hx, hy⟩ | ⟨a, b, c, ha, hb, hc, h⟩ | ⟨a, b, c, ha, hb, hc, h⟩)
    · exact ⟨x, in2_seg h1 hx, in2_seg h2 hy⟩
    · exact ⟨v0, self _ _ _, a, b, c, ha.le, hb.le, hc.le, h⟩
    · exact ⟨u0, ⟨a, b, c, ha.le, hb.le, hc.le, h⟩, self _ _ _⟩

end Verif.Proofs.TriTri
