import Verif.Proofs.Boxes

/-!
# The separating-axis test of a box and a triangle is exact

Positions are taken relative to the centre of the box.  The forward direction is Helly's theorem in the plane of the
triangle's parameters, applied to three slabs and three half-planes.
-/

namespace Verif.Proofs.BoxTri

open Verif.Model.Matrix Verif.Model.Vector Verif.Model.Transform Verif.Model.Geometry Verif.Model.Boxes
open Verif.Proofs.Vector Verif.Proofs.Transform Verif.Proofs.Geometry Verif.Proofs.Boxes Verif.Spec.Geometry

/-- The hull of three numbers meets `[-r, r]`. -/
def Ov (x y z r : ℝ) : Prop := (x ≤ r ∨ y ≤ r ∨ z ≤ r) ∧ (-r ≤ x ∨ -r ≤ y ∨ -r ≤ z)

theorem Ov.neg {x y z r : ℝ} (h : Ov x y z r) : Ov (-x) (-y) (-z) r := by
  obtain ⟨h1, h2⟩ := h
  constructor
  · rcases h2 with h | h | h
    · left; linarith
    · right; left; linarith
    · right; right; linarith
  · rcases h1 with h | h | h
    · left; linarith
    · right; left; linarith
    · right; right; linarith

theorem Ov.rot {x y z r : ℝ} (h : Ov x y z r) : Ov y z x r := by
  obtain ⟨h1, h2⟩ := h
  constructor
  · tauto
  · tauto

theorem Ov.swap {x y z r : ℝ} (h : Ov x y z r) : Ov x z y r := by
  obtain ⟨h1, h2⟩ := h
  constructor
  · tauto
  · tauto

theorem ov_combo {x y z r a b c : ℝ} (ha : 0 ≤ a) (hb : 0 ≤ b) (hc : 0 ≤ c) (h1 : a + b + c = 1)
    (h : |a * x + b * y + c * z| ≤ r) : Ov x y z r := by
  rw [abs_le] at h
  constructor
  · by_contra hn
    push Not at hn
    obtain ⟨hx, hy, hz⟩ := hn
    have e : r = a * r + b * r + c * r := by linear_combination (-r) * h1
    have k1 := mul_nonneg ha (sub_nonneg.mpr hx.le)
    have k2 := mul_nonneg hb (sub_nonneg.mpr hy.le)
    have k3 := mul_nonneg hc (sub_nonneg.mpr hz.le)
    have : a * (x - r) + b * (y - r) + c * (z - r) ≤ 0 := by nlinarith
    have z1 : a * (x - r) = 0 := by linarith
    have z2 : b * (y - r) = 0 := by linarith
    have z3 : c * (z - r) = 0 := by linarith
    have a0 : a = 0 := by rcases mul_eq_zero.mp z1 with h | h; exact h; linarith
    have b0 : b = 0 := by rcases mul_eq_zero.mp z2 with h | h; exact h; linarith
    have c0 : c = 0 := by rcases mul_eq_zero.mp z3 with h | h; exact h; linarith
    linarith
  · by_contra hn
    push Not at hn
    obtain ⟨hx, hy, hz⟩ := hn
    have e : r = a * r + b * r + c * r := by linear_combination (-r) * h1
    have k1 := mul_nonneg ha (sub_nonneg.mpr hx.le)
    have k2 := mul_nonneg hb (sub_nonneg.mpr hy.le)
    have k3 := mul_nonneg hc (sub_nonneg.mpr hz.le)
    have : a * (-r - x) + b * (-r - y) + c * (-r - z) ≤ 0 := by nlinarith
    have z1 : a * (-r - x) = 0 := by linarith
    have z2 : b * (-r - y) = 0 := by linarith
    have z3 : c * (-r - z) = 0 := by linarith
    have a0 : a = 0 := by rcases mul_eq_zero.mp z1 with h | h; exact h; linarith
    have b0 : b = 0 := by rcases mul_eq_zero.mp z2 with h | h; exact h; linarith
    have c0 : c = 0 := by rcases mul_eq_zero.mp z3 with h | h; exact h; linarith
    linarith

/-- Two numbers, one at most `r` and one at least `-r`, have a mean in `[-r, r]`. -/
theorem mean_two {x y r : ℝ} (hr : 0 ≤ r) (h1 : x ≤ r) (h2 : -r ≤ y) : ∃ t : ℝ, 0 ≤ t ∧ t ≤ 1 ∧ |x + t * (y - x)| ≤ r := by
  rcases le_total x y with h | h
  · obtain ⟨t, k1, k2, k⟩ := slab_unit (m := (x + y) / 2) (d := (y - x) / 2) hr (by
      rw [abs_of_nonneg (by linarith : 0 ≤ (y - x) / 2), abs_le]; constructor <;> linarith)
    refine ⟨(1 + t) / 2, by linarith, by linarith, ?_⟩
    convert k using 2; ring
  · exact ⟨0, le_rfl, zero_le_one, by rw [abs_le]; constructor <;> linarith⟩

theorem ov_mean {x y z r : ℝ} (hr : 0 ≤ r) (h : Ov x y z r) :
    ∃ a b c : ℝ, 0 ≤ a ∧ 0 ≤ b ∧ 0 ≤ c ∧ a + b + c = 1 ∧ |a * x + b * y + c * z| ≤ r := by
  obtain ⟨h1, h2⟩ := h
  rcases h1 with h1 | h1 | h1 <;> rcases h2 with h2 | h2 | h2 <;> obtain ⟨t, t0, t1, ht⟩ := mean_two hr h1 h2
  · exact ⟨1, 0, 0, by norm_num, le_rfl, le_rfl, by norm_num, by convert ht using 2; ring⟩
  · exact ⟨1 - t, t, 0, by linarith, t0, le_rfl, by ring, by convert ht using 2; ring⟩
  · exact ⟨1 - t, 0, t, by linarith, le_rfl, t0, by ring, by convert ht using 2; ring⟩
  · exact ⟨t, 1 - t, 0, t0, by linarith, le_rfl, by ring, by convert ht using 2; ring⟩
  · exact ⟨0, 1, 0, le_rfl, by norm_num, le_rfl, by norm_num, by convert ht using 2; ring⟩
  · exact ⟨0, 1 - t, t, le_rfl, by linarith, t0, by ring, by convert ht using 2; ring⟩
  · exact ⟨t, 0, 1 - t, t0, le_rfl, by linarith, by ring, by convert ht using 2; ring⟩
  · exact ⟨0, t, 1 - t, le_rfl, t0, by linarith, by ring, by convert ht using 2; ring⟩
  · exact ⟨0, 0, 1, le_rfl, le_rfl, by norm_num, by norm_num, by convert ht using 2; ring⟩

/-- The values of a linear functional on a rectangle. -/
theorem rect_value {ei ej : ℝ} (hi : 0 ≤ ei) (hj : 0 ≤ ej) (ai aj v : ℝ) (h : |v| ≤ ei * |ai| + ej * |aj|) :
    ∃ yi yj : ℝ, |yi| ≤ ei ∧ |yj| ≤ ej ∧ ai * yi + aj * yj = v := by
  obtain ⟨x, hx, e⟩ := (box_values (c := ![0, 0, 0]) (e := ![ei, ej, 0]) (by intro i; fin_cases i <;> simp [hi, hj])
    ![ai, aj, 0] v).mpr (by simpa using h)
  have h0 := hx 0
  have h1 := hx 1
  simp at h0 h1 e
  exact ⟨x 0, x 1, h0, h1, e⟩

/-- Two slabs and a half-plane: from a vertex `l`, the edge to `m` and the edge to `k`. -/
theorem slabs_half {ei ej li lj mi mj ki kj : ℝ} (hei : 0 ≤ ei) (hej : 0 ≤ ej) (hi : Ov li mi ki ei) (hj : Ov lj mj kj ej)
    (hE : Ov ((mj - lj) * li - (mi - li) * lj) ((mj - lj) * mi - (mi - li) * mj) ((mj - lj) * ki - (mi - li) * kj)
      (ei * |mj - lj| + ej * |mi - li|))
    (hF : Ov ((kj - lj) * li - (ki - li) * lj) ((kj - lj) * mi - (ki - li) * mj) ((kj - lj) * ki - (ki - li) * kj)
      (ei * |kj - lj| + ej * |ki - li|)) :
    ∃ s t : ℝ, 0 ≤ t ∧ |li + s * (mi - li) + t * (ki - li)| ≤ ei ∧ |lj + s * (mj - lj) + t * (kj - lj)| ≤ ej := by
  by_cases h0 : mi - li = 0 ∧ mj - lj = 0
  · obtain ⟨h0i, h0j⟩ := h0
    have emi : mi = li := by linarith
    have emj : mj = lj := by linarith
    subst emi emj
    have two : ∀ {x y r : ℝ}, 0 ≤ r → Ov x x y r → |(x + y) / 2| ≤ r + |(y - x) / 2| := by
      intro x y r hr ⟨h1, h2⟩
      have a1 := le_abs_self ((y - x) / 2)
      have a2 := neg_le_abs ((y - x) / 2)
      rw [abs_le]
      constructor
      · rcases h2 with h | h | h <;> linarith
      · rcases h1 with h | h | h <;> linarith
    have hFF : |(ki - mi) / 2 * ((mj + kj) / 2) - (kj - mj) / 2 * ((mi + ki) / 2)| ≤
        ei * |(kj - mj) / 2| + ej * |(ki - mi) / 2| := by
      obtain ⟨h1, h2⟩ := hF
      rw [abs_div, abs_div, abs_two, abs_le]
      constructor
      · rcases h1 with h | h | h <;> nlinarith
      · rcases h2 with h | h | h <;> nlinarith
    obtain ⟨t, t1, t2, ht⟩ := slabs_helly ![(mi + ki) / 2, (mj + kj) / 2, 0] ![(ki - mi) / 2, (kj - mj) / 2, 0] ![ei, ej, 0]
      (by intro i; fin_cases i <;> simp [hei, hej])
      (by
        intro i; fin_cases i
        · exact two hei hi
        · exact two hej hj
        · simp)
      (by
        intro i j
        have sw := abs_sub_comm ((ki - mi) / 2 * ((mj + kj) / 2)) ((kj - mj) / 2 * ((mi + ki) / 2))
        have p1 := abs_nonneg ((kj - mj) / 2)
        have p2 := abs_nonneg ((ki - mi) / 2)
        fin_cases i <;> fin_cases j <;>
          simp only [Fin.zero_eta, Fin.mk_one, Fin.reduceFinMk, Fin.isValue, Matrix.cons_val_zero, Matrix.cons_val_one,
            Matrix.cons_val]
        · rw [sub_self, abs_zero]; positivity
        · exact hFF
        · simp
        · rw [← sw]; linarith
        · rw [sub_self, abs_zero]; positivity
        · simp
        · simp
        · simp
        · simp)
    have k0 := ht 0
    have k1 := ht 1
    simp only [Matrix.cons_val_zero, Matrix.cons_val_one] at k0 k1
    refine ⟨0, (1 + t) / 2, by linarith, ?_, ?_⟩
    · convert k0 using 2; ring
    · convert k1 using 2; ring
  · -- a point of the rectangle with the same value of the functional that is constant along the edge
    generalize hEi : mi - li = Ei at *
    generalize hEj : mj - lj = Ej at *
    have e1 : Ej * mi - Ei * mj = Ej * li - Ei * lj := by rw [← hEi, ← hEj]; ring
    rw [e1] at hE
    have hR : 0 ≤ ei * |Ej| + ej * |Ei| := by positivity
    have : ∃ τ : ℝ, 0 ≤ τ ∧ |Ej * (li + τ * (ki - li)) - Ei * (lj + τ * (kj - lj))| ≤ ei * |Ej| + ej * |Ei| := by
      obtain ⟨a, b, c, ha, hb, hc, h1, h⟩ := ov_mean hR hE
      refine ⟨c, hc, ?_⟩
      convert h using 2
      have : b = 1 - a - c := by linarith
      subst this
      ring
    obtain ⟨τ, hτ, h⟩ := this
    obtain ⟨yi, yj, hyi, hyj, hy⟩ := rect_value hei hej Ej (-Ei) (Ej * (li + τ * (ki - li)) - Ei * (lj + τ * (kj - lj)))
      (by rw [abs_neg]; exact h)
    have hpos : 0 < Ei ^ 2 + Ej ^ 2 := by
      rcases not_and_or.mp h0 with h | h
      · have := pow_pos (abs_pos.mpr h) 2; rw [sq_abs] at this; positivity
      · have := pow_pos (abs_pos.mpr h) 2; rw [sq_abs] at this; positivity
    refine ⟨(Ei * (yi - li - τ * (ki - li)) + Ej * (yj - lj - τ * (kj - lj))) / (Ei ^ 2 + Ej ^ 2), τ, hτ, ?_, ?_⟩
    · convert hyi using 2
      field_simp
      linear_combination (-Ej) * hy
    · convert hyj using 2
      field_simp
      linear_combination Ei * hy

/-- The barycentric weights over the parameter plane. -/
def W (x : Fin 2 → ℝ) : Fin 3 → ℝ := ![1 - x 0 - x 1, x 0, x 1]

theorem W_affine (x y : Fin 2 → ℝ) (a b : ℝ) (h : a + b = 1) (k : Fin 3) : W (a • x + b • y) k = a * W x k + b * W y k := by
  have : a = 1 - b := by linarith
  subst this
  fin_cases k <;> simp [W]; ring

/-- The value of a coordinate at a parameter. -/
def val (q : Fin 3 → Point) (x : Fin 2 → ℝ) (i : Fin 3) : ℝ := W x 0 * q 0 i + W x 1 * q 1 i + W x 2 * q 2 i

theorem val_affine (q : Fin 3 → Point) (x y : Fin 2 → ℝ) (a b : ℝ) (h : a + b = 1) (i : Fin 3) :
    val q (a • x + b • y) i = a * val q x i + b * val q y i := by
  simp only [val, W_affine _ _ _ _ h]; ring

/-- The slabs and half-planes. -/
def F (q : Fin 3 → Point) (e : Point) : Fin 3 ⊕ Fin 3 → Set (Fin 2 → ℝ)
  | .inl i => {x | |val q x i| ≤ e i}
  | .inr k => {x | 0 ≤ W x k}

theorem F_convex (q : Fin 3 → Point) (e : Point) (o : Fin 3 ⊕ Fin 3) : Convex ℝ (F q e o) := by
  intro x hx y hy a b ha hb hab
  rcases o with i | k
  · have hx : |val q x i| ≤ e i := hx
    have hy : |val q y i| ≤ e i := hy
    show |val q _ i| ≤ e i
    rw [val_affine _ _ _ _ _ hab]
    rw [abs_le] at *
    have : a = 1 - b := by linarith
    subst this
    constructor <;> nlinarith
  · have hx : 0 ≤ W x k := hx
    have hy : 0 ≤ W y k := hy
    show 0 ≤ W _ k
    rw [W_affine _ _ _ _ hab]
    positivity

theorem cover : ∀ I : Finset (Fin 3 ⊕ Fin 3), I.card ≤ 3 →
    I ⊆ {.inl 0, .inl 1, .inl 2} ∨ (∃ r k : Fin 3, I ⊆ {.inl (r + 1), .inl (r + 2), .inr k}) ∨
      ∃ i : Fin 3, I ⊆ {.inl i, .inr 0, .inr 1, .inr 2} := by
  decide +kernel

/-- All thirteen tests of the separating-axis theorem: the box with half-sides `e` about the origin and the triangle `q`. -/
structure Passes (q : Fin 3 → Point) (e : Point) : Prop where
  face : ∀ i, Ov (q 0 i) (q 1 i) (q 2 i) (e i)
  normal : ∃ y : Point, (∀ i, |y i| ≤ e i) ∧ y ∈ triPlane (q 0) (q 1) (q 2)
  edge : ∀ l m : Fin 3, l ≠ m → ∀ r : Fin 3,
    Ov ((q m (r + 2) - q l (r + 2)) * q 0 (r + 1) - (q m (r + 1) - q l (r + 1)) * q 0 (r + 2))
      ((q m (r + 2) - q l (r + 2)) * q 1 (r + 1) - (q m (r + 1) - q l (r + 1)) * q 1 (r + 2))
      ((q m (r + 2) - q l (r + 2)) * q 2 (r + 1) - (q m (r + 1) - q l (r + 1)) * q 2 (r + 2))
      (e (r + 1) * |q m (r + 2) - q l (r + 2)| + e (r + 2) * |q m (r + 1) - q l (r + 1)|)

theorem passes_meets {q : Fin 3 → Point} {e : Point} (he : ∀ i, 0 ≤ e i) (hp : Proper (q 0) (q 1) (q 2))
    (h : Passes q e) : ∃ a b c : ℝ, 0 ≤ a ∧ 0 ≤ b ∧ 0 ≤ c ∧ a + b + c = 1 ∧
      ∀ i, |a * q 0 i + b * q 1 i + c * q 2 i| ≤ e i := by
  have hF : (⋂ o ∈ (Finset.univ : Finset (Fin 3 ⊕ Fin 3)), F q e o).Nonempty := by
    refine Convex.helly_theorem' (𝕜 := ℝ) (fun o _ => F_convex q e o) ?_
    intro I _ hI
    have hc : I.card ≤ 3 := by simpa using hI
    have build : ∀ (T : Finset (Fin 3 ⊕ Fin 3)) (x : Fin 2 → ℝ), I ⊆ T → (∀ o ∈ T, x ∈ F q e o) → (⋂ o ∈ I, F q e o).Nonempty := by
      intro T x hT hx
      refine ⟨x, ?_⟩
      simp only [Set.mem_iInter]
      exact fun o ho => hx o (hT ho)
    rcases cover I hc with hT | ⟨r, k, hT⟩ | ⟨i, hT⟩
    · obtain ⟨y, hy, hpl⟩ := h.normal
      obtain ⟨s, t, hst⟩ := plane_span hp hpl
      refine build _ ![s, t] hT ?_
      have : ∀ i, |val q ![s, t] i| ≤ e i := by
        intro i
        convert hy i using 2
        rw [hst i]
        simp [val, W]; ring
      intro o ho
      simp only [Finset.mem_insert, Finset.mem_singleton] at ho
      rcases ho with rfl | rfl | rfl <;> exact this _
    · have main : ∃ x : Fin 2 → ℝ, |val q x (r + 1)| ≤ e (r + 1) ∧ |val q x (r + 2)| ≤ e (r + 2) ∧ 0 ≤ W x k := by
        fin_cases k
        · obtain ⟨s, t, ht, h1, h2⟩ := slabs_half (he (r + 1)) (he (r + 2)) (h.face (r + 1)).rot (h.face (r + 2)).rot
            (h.edge 1 2 (by decide) r).rot (h.edge 1 0 (by decide) r).rot
          refine ⟨![1 - s - t, s], ?_, ?_, ?_⟩
          · convert h1 using 2; simp [val, W]; ring
          · convert h2 using 2; simp [val, W]; ring
          · simp [W]; linarith
        · obtain ⟨s, t, ht, h1, h2⟩ := slabs_half (he (r + 1)) (he (r + 2)) (h.face (r + 1)).rot.rot (h.face (r + 2)).rot.rot
            (h.edge 2 0 (by decide) r).rot.rot (h.edge 2 1 (by decide) r).rot.rot
          refine ⟨![t, 1 - s - t], ?_, ?_, ?_⟩
          · convert h1 using 2; simp [val, W]; ring
          · convert h2 using 2; simp [val, W]; ring
          · simpa [W] using ht
        · obtain ⟨s, t, ht, h1, h2⟩ := slabs_half (he (r + 1)) (he (r + 2)) (h.face (r + 1)) (h.face (r + 2))
            (h.edge 0 1 (by decide) r) (h.edge 0 2 (by decide) r)
          refine ⟨![s, t], ?_, ?_, ?_⟩
          · convert h1 using 2; simp [val, W]; ring
          · convert h2 using 2; simp [val, W]; ring
          · simpa [W] using ht
      obtain ⟨x, h1, h2, h3⟩ := main
      refine build _ x hT ?_
      intro o ho
      simp only [Finset.mem_insert, Finset.mem_singleton] at ho
      rcases ho with rfl | rfl | rfl
      · exact h1
      · exact h2
      · exact h3
    · obtain ⟨a, b, c, ha, hb, hc, h1, hv⟩ := ov_mean (he i) (h.face i)
      have hw : W ![b, c] = ![a, b, c] := by
        funext k
        fin_cases k <;> simp [W]; linarith
      refine build _ ![b, c] hT ?_
      intro o ho
      simp only [Finset.mem_insert, Finset.mem_singleton] at ho
      rcases ho with rfl | rfl | rfl | rfl
      · show |val q _ i| ≤ e i
        rw [val, hw]; exact hv
      · show 0 ≤ W _ _; rw [hw]; exact ha
      · show 0 ≤ W _ _; rw [hw]; exact hb
      · show 0 ≤ W _ _; rw [hw]; exact hc
  obtain ⟨x, hx⟩ := hF
  simp only [Set.mem_iInter] at hx
  have hw : ∀ k, 0 ≤ W x k := fun k => hx (.inr k) (Finset.mem_univ _)
  exact ⟨W x 0, W x 1, W x 2, hw 0, hw 1, hw 2, by simp [W]; ring, fun i => hx (.inl i) (Finset.mem_univ _)⟩

theorem meets_passes {q : Fin 3 → Point} {e : Point}
    (h : ∃ a b c : ℝ, 0 ≤ a ∧ 0 ≤ b ∧ 0 ≤ c ∧ a + b + c = 1 ∧ ∀ i, |a * q 0 i + b * q 1 i + c * q 2 i| ≤ e i) :
    Passes q e := by
  obtain ⟨a, b, c, ha, hb, hc, h1, h⟩ := h
  refine ⟨fun i => ov_combo ha hb hc h1 (h i), ⟨_, h, ?_⟩, fun l m _ r => ?_⟩
  · rw [triPlane_iff]
    have : a = 1 - b - c := by linarith
    subst this
    ring
  · refine ov_combo ha hb hc h1 ?_
    generalize q m (r + 2) - q l (r + 2) = A
    generalize q m (r + 1) - q l (r + 1) = B
    have e1 := h (r + 1)
    have e2 := h (r + 2)
    have : a * (A * q 0 (r + 1) - B * q 0 (r + 2)) + b * (A * q 1 (r + 1) - B * q 1 (r + 2)) +
        c * (A * q 2 (r + 1) - B * q 2 (r + 2)) =
        A * (a * q 0 (r + 1) + b * q 1 (r + 1) + c * q 2 (r + 1)) - B * (a * q 0 (r + 2) + b * q 1 (r + 2) + c * q 2 (r + 2)) := by
      ring
    rw [this]
    refine le_trans (abs_sub _ _) ?_
    rw [abs_mul, abs_mul]
    have k1 := mul_le_mul_of_nonneg_left e1 (abs_nonneg A)
    have k2 := mul_le_mul_of_nonneg_left e2 (abs_nonneg B)
    linarith

/-! ### the tester of the model -/

theorem fold_min {α : Type*} (f : α → ℝ) (pts : List α) (s : Sat) (a : ℝ) :
    (pts.foldl (fun s q => s.add (f q)) s).min ≤ a ↔ s.min ≤ a ∨ ∃ q ∈ pts, f q ≤ a := by
  induction pts generalizing s with
  | nil => simp
  | cons p pts ih => rw [List.foldl_cons, ih]; simp [Sat.add, smin_eq, or_assoc, or_left_comm]

theorem fold_max {α : Type*} (f : α → ℝ) (pts : List α) (s : Sat) (a : ℝ) :
    a ≤ (pts.foldl (fun s q => s.add (f q)) s).max ↔ a ≤ s.max ∨ ∃ q ∈ pts, a ≤ f q := by
  induction pts generalizing s with
  | nil => simp
  | cons p pts ih => rw [List.foldl_cons, ih]; simp [Sat.add, smax_eq, or_assoc, or_left_comm]

theorem corner_min {c e : Point} (he : ∀ i, 0 ≤ e i) (α : Vec) (a : ℝ) :
    (satOf α (fun i => c i - e i) (cornersMinMax (fun i => c i - e i) (fun i => c i + e i))).min ≤ a ↔
      (α 0 * c 0 + α 1 * c 1 + α 2 * c 2) - (e 0 * |α 0| + e 1 * |α 1| + e 2 * |α 2|) ≤ a := by
  have h0 := he 0
  have h1 := he 1
  have h2 := he 2
  have t0 := mul_le_mul_of_nonneg_left (le_abs_self (α 0)) h0
  have t1 := mul_le_mul_of_nonneg_left (le_abs_self (α 1)) h1
  have t2 := mul_le_mul_of_nonneg_left (le_abs_self (α 2)) h2
  have s0 := mul_le_mul_of_nonneg_left (neg_le_abs (α 0)) h0
  have s1 := mul_le_mul_of_nonneg_left (neg_le_abs (α 1)) h1
  have s2 := mul_le_mul_of_nonneg_left (neg_le_abs (α 2)) h2
  rw [satOf, fold_min]
  simp only [cornersMinMax, List.exists_mem_cons_iff, List.not_mem_nil, false_and, exists_false, or_false, dot3,
    Matrix.cons_val_zero, Matrix.cons_val_one, Matrix.cons_val]
  constructor
  · rintro (h | h | h | h | h | h | h | h) <;> linarith
  · intro h
    rcases abs_cases (α 0) with ⟨a0, -⟩ | ⟨a0, -⟩ <;> rcases abs_cases (α 1) with ⟨a1, -⟩ | ⟨a1, -⟩ <;>
      rcases abs_cases (α 2) with ⟨a2, -⟩ | ⟨a2, -⟩ <;> rw [a0, a1, a2] at h
    · left; linarith
    · right; right; right; right; right; right; left; linarith
    · right; right; right; right; left; linarith
    · right; right; right; right; right; left; linarith
    · right; left; linarith
    · right; right; right; left; linarith
    · right; right; left; linarith
    · right; right; right; right; right; right; right; linarith

theorem corner_max {c e : Point} (he : ∀ i, 0 ≤ e i) (α : Vec) (a : ℝ) :
    a ≤ (satOf α (fun i => c i - e i) (cornersMinMax (fun i => c i - e i) (fun i => c i + e i))).max ↔
      a ≤ (α 0 * c 0 + α 1 * c 1 + α 2 * c 2) + (e 0 * |α 0| + e 1 * |α 1| + e 2 * |α 2|) := by
  have h0 := he 0
  have h1 := he 1
  have h2 := he 2
  have t0 := mul_le_mul_of_nonneg_left (le_abs_self (α 0)) h0
  have t1 := mul_le_mul_of_nonneg_left (le_abs_self (α 1)) h1
  have t2 := mul_le_mul_of_nonneg_left (le_abs_self (α 2)) h2
  have s0 := mul_le_mul_of_nonneg_left (neg_le_abs (α 0)) h0
  have s1 := mul_le_mul_of_nonneg_left (neg_le_abs (α 1)) h1
  have s2 := mul_le_mul_of_nonneg_left (neg_le_abs (α 2)) h2
  rw [satOf, fold_max]
  simp only [cornersMinMax, List.exists_mem_cons_iff, List.not_mem_nil, false_and, exists_false, or_false, dot3,
    Matrix.cons_val_zero, Matrix.cons_val_one, Matrix.cons_val]
  constructor
  · rintro (h | h | h | h | h | h | h | h) <;> linarith
  · intro h
    rcases abs_cases (α 0) with ⟨a0, -⟩ | ⟨a0, -⟩ <;> rcases abs_cases (α 1) with ⟨a1, -⟩ | ⟨a1, -⟩ <;>
      rcases abs_cases (α 2) with ⟨a2, -⟩ | ⟨a2, -⟩ <;> rw [a0, a1, a2] at h
    · right; right; right; right; right; right; right; linarith
    · right; right; left; linarith
    · right; right; right; left; linarith
    · right; left; linarith
    · right; right; right; right; right; left; linarith
    · right; right; right; right; left; linarith
    · right; right; right; right; right; right; left; linarith
    · left; linarith

theorem tri_min (α p0 p1 p2 : Vec) (a : ℝ) : (satOf α p0 [p1, p2]).min ≤ a ↔ dot α p0 ≤ a ∨ dot α p1 ≤ a ∨ dot α p2 ≤ a := by
  rw [satOf, fold_min]; simp

theorem tri_max (α p0 p1 p2 : Vec) (a : ℝ) : a ≤ (satOf α p0 [p1, p2]).max ↔ a ≤ dot α p0 ∨ a ≤ dot α p1 ∨ a ≤ dot α p2 := by
  rw [satOf, fold_max]; simp

theorem le_of_forall_le' {x y : ℝ} : x ≤ y ↔ ∀ a, y ≤ a → x ≤ a := ⟨fun h a ha => h.trans ha, fun h => h y le_rfl⟩

/-- The test of one axis: the triangle's projections, relative to the centre, meet the box's. -/
theorem testOther_iff {c e : Point} (he : ∀ i, 0 ≤ e i) (α p0 p1 p2 : Vec) :
    (satOf α (fun i => c i - e i) (cornersMinMax (fun i => c i - e i) (fun i => c i + e i))).testOther (satOf α p0 [p1, p2])
        = true ↔
      Ov (α 0 * (p0 0 - c 0) + α 1 * (p0 1 - c 1) + α 2 * (p0 2 - c 2))
        (α 0 * (p1 0 - c 0) + α 1 * (p1 1 - c 1) + α 2 * (p1 2 - c 2))
        (α 0 * (p2 0 - c 0) + α 1 * (p2 1 - c 1) + α 2 * (p2 2 - c 2))
        (e 0 * |α 0| + e 1 * |α 1| + e 2 * |α 2|) := by
  simp only [Sat.testOther, Bool.and_eq_true, decide_eq_true_eq, ge_iff_le]
  rw [corner_min he, corner_max he, tri_min, tri_max]
  generalize e 0 * |α 0| + e 1 * |α 1| + e 2 * |α 2| = R
  simp only [dot3]
  unfold Ov
  rw [and_comm]
  refine and_congr (or_congr ?_ (or_congr ?_ ?_)) (or_congr ?_ (or_congr ?_ ?_)) <;> constructor <;> intro h <;> linarith

theorem face_iff {c e : Point} (i : Fin 3) (p0 p1 p2 : Vec) :
    (satOfIndex i p0 [p1, p2]).testRange (c i - e i) (c i + e i) = true ↔
      Ov (p0 i - c i) (p1 i - c i) (p2 i - c i) (e i) := by
  simp only [Sat.testRange, Bool.and_eq_true, decide_eq_true_eq, ge_iff_le]
  rw [satOfIndex, fold_min, fold_max]
  simp only [List.exists_mem_cons_iff, List.not_mem_nil, false_and, exists_false, or_false, mul_one]
  unfold Ov
  refine and_congr (or_congr ?_ (or_congr ?_ ?_)) (or_congr ?_ (or_congr ?_ ?_)) <;> constructor <;> intro h <;> linarith

theorem normal_iff {c e : Point} (he : ∀ i, 0 ≤ e i) {p0 p1 p2 : Vec} (hp : Proper p0 p1 p2) :
    akenineMoller2 (fun i => c i - e i) (fun i => c i + e i) p0 (triNormal p0 p1 p2) = true ↔
      ∃ y : Point, (∀ i, |y i| ≤ e i) ∧ y ∈ triPlane (fun i => p0 i - c i) (fun i => p1 i - c i) (fun i => p2 i - c i) := by
  obtain ⟨n, hn, -, k, hk, -, hnk⟩ := normalizeNaN_spec ((proper_iff _ _ _).mp hp)
  rw [triNormal, hn]
  simp only [akenineMoller2, Sat.testValue, Bool.and_eq_true, decide_eq_true_eq, ge_iff_le]
  rw [corner_min he, corner_max he, dot3]
  have hb := box_values (c := fun _ => 0) he n (n 0 * (p0 0 - c 0) + n 1 * (p0 1 - c 1) + n 2 * (p0 2 - c 2))
  simp only [mul_zero, add_zero, sub_zero, abs_le] at hb
  generalize e 0 * |n 0| + e 1 * |n 1| + e 2 * |n 2| = R at *
  have e1 : (n 0 * c 0 + n 1 * c 1 + n 2 * c 2 - R ≤ n 0 * p0 0 + n 1 * p0 1 + n 2 * p0 2 ∧
      n 0 * p0 0 + n 1 * p0 1 + n 2 * p0 2 ≤ n 0 * c 0 + n 1 * c 1 + n 2 * c 2 + R) ↔
      (-R ≤ n 0 * (p0 0 - c 0) + n 1 * (p0 1 - c 1) + n 2 * (p0 2 - c 2) ∧
        n 0 * (p0 0 - c 0) + n 1 * (p0 1 - c 1) + n 2 * (p0 2 - c 2) ≤ R) := by
    constructor <;> rintro ⟨h1, h2⟩ <;> constructor <;> linarith
  rw [e1, ← hb]
  obtain ⟨c0, c1, c2⟩ := cross3 (fun i => p1 i - p0 i) (fun i => p2 i - p0 i)
  have n0 := hnk 0
  have n1 := hnk 1
  have n2 := hnk 2
  rw [c0] at n0
  rw [c1] at n1
  rw [c2] at n2
  refine exists_congr fun y => and_congr ?_ ?_
  · show (∀ i, |y i - 0| ≤ e i) ↔ _
    simp only [sub_zero]
  · rw [triPlane_iff, n0, n1, n2]
    constructor
    · intro h
      refine mul_left_cancel₀ hk.ne' ?_
      linear_combination h
    · intro h
      linear_combination k * h

theorem edges_iff {c e : Point} (he : ∀ i, 0 ≤ e i) (p : Fin 3 → Vec) :
    akenineMoller3 (fun i => c i - e i) (fun i => c i + e i) (p 0) (p 1) (p 2)
        [fun i => p 1 i - p 0 i, fun i => p 2 i - p 1 i, fun i => p 0 i - p 2 i] = true ↔
      ∀ l m : Fin 3, l ≠ m → ∀ r : Fin 3,
        Ov (((p m (r + 2) - c (r + 2)) - (p l (r + 2) - c (r + 2))) * (p 0 (r + 1) - c (r + 1)) - ((p m (r + 1) - c (r + 1)) - (p l (r + 1) - c (r + 1))) * (p 0 (r + 2) - c (r + 2)))
          (((p m (r + 2) - c (r + 2)) - (p l (r + 2) - c (r + 2))) * (p 1 (r + 1) - c (r + 1)) - ((p m (r + 1) - c (r + 1)) - (p l (r + 1) - c (r + 1))) * (p 1 (r + 2) - c (r + 2)))
          (((p m (r + 2) - c (r + 2)) - (p l (r + 2) - c (r + 2))) * (p 2 (r + 1) - c (r + 1)) - ((p m (r + 1) - c (r + 1)) - (p l (r + 1) - c (r + 1))) * (p 2 (r + 2) - c (r + 2)))
          (e (r + 1) * |(p m (r + 2) - c (r + 2)) - (p l (r + 2) - c (r + 2))| + e (r + 2) * |(p m (r + 1) - c (r + 1)) - (p l (r + 1) - c (r + 1))|) := by
  have one : ∀ (E : Vec) (r : Fin 3),
      (satOf (crossAxisRight E r) (fun i => c i - e i) (cornersMinMax (fun i => c i - e i) (fun i => c i + e i))).testOther
        (satOf (crossAxisRight E r) (p 0) [p 1, p 2]) = true ↔
      Ov (E (r + 2) * (p 0 (r + 1) - c (r + 1)) - E (r + 1) * (p 0 (r + 2) - c (r + 2)))
        (E (r + 2) * (p 1 (r + 1) - c (r + 1)) - E (r + 1) * (p 1 (r + 2) - c (r + 2)))
        (E (r + 2) * (p 2 (r + 1) - c (r + 1)) - E (r + 1) * (p 2 (r + 2) - c (r + 2)))
        (e (r + 1) * |E (r + 2)| + e (r + 2) * |E (r + 1)|) := by
    intro E r
    rw [testOther_iff he]
    fin_cases r <;> simp [crossAxisRight, sub_eq_add_neg, add_comm]
  have neg : ∀ (A B : ℝ) (x y z : ℝ × ℝ) (u v : ℝ), Ov (A * x.1 - B * x.2) (A * y.1 - B * y.2) (A * z.1 - B * z.2) (u * |A| + v * |B|) →
      Ov (-A * x.1 - -B * x.2) (-A * y.1 - -B * y.2) (-A * z.1 - -B * z.2) (u * |-A| + v * |-B|) := by
    intro A B x y z u v h
    have := h.neg
    rw [abs_neg, abs_neg]
    convert this using 1 <;> ring
  have sub : ∀ (l m i : Fin 3), (p m i - c i) - (p l i - c i) = p m i - p l i := fun l m i => by ring
  simp only [sub]
  simp only [akenineMoller3, List.all_cons, List.all_nil, Bool.and_true, Bool.and_eq_true, one]
  constructor
  · rintro ⟨⟨⟨a0, a1⟩, a2⟩, ⟨⟨b0, b1⟩, b2⟩, ⟨c0, c1⟩, c2⟩ l m hlm r
    have k01 : ∀ r : Fin 3, _ := fun r => (show Ov ((p 1 (r + 2) - p 0 (r + 2)) * (p 0 (r + 1) - c (r + 1)) - (p 1 (r + 1) - p 0 (r + 1)) * (p 0 (r + 2) - c (r + 2)))
        ((p 1 (r + 2) - p 0 (r + 2)) * (p 1 (r + 1) - c (r + 1)) - (p 1 (r + 1) - p 0 (r + 1)) * (p 1 (r + 2) - c (r + 2)))
        ((p 1 (r + 2) - p 0 (r + 2)) * (p 2 (r + 1) - c (r + 1)) - (p 1 (r + 1) - p 0 (r + 1)) * (p 2 (r + 2) - c (r + 2)))
        (e (r + 1) * |p 1 (r + 2) - p 0 (r + 2)| + e (r + 2) * |p 1 (r + 1) - p 0 (r + 1)|) by
      fin_cases r
      · exact a0
      · exact a1
      · exact a2)
    have k12 : ∀ r : Fin 3, _ := fun r => (show Ov ((p 2 (r + 2) - p 1 (r + 2)) * (p 0 (r + 1) - c (r + 1)) - (p 2 (r + 1) - p 1 (r + 1)) * (p 0 (r + 2) - c (r + 2)))
        ((p 2 (r + 2) - p 1 (r + 2)) * (p 1 (r + 1) - c (r + 1)) - (p 2 (r + 1) - p 1 (r + 1)) * (p 1 (r + 2) - c (r + 2)))
        ((p 2 (r + 2) - p 1 (r + 2)) * (p 2 (r + 1) - c (r + 1)) - (p 2 (r + 1) - p 1 (r + 1)) * (p 2 (r + 2) - c (r + 2)))
        (e (r + 1) * |p 2 (r + 2) - p 1 (r + 2)| + e (r + 2) * |p 2 (r + 1) - p 1 (r + 1)|) by
      fin_cases r
      · exact b0
      · exact b1
      · exact b2)
    have k20 : ∀ r : Fin 3, _ := fun r => (show Ov ((p 0 (r + 2) - p 2 (r + 2)) * (p 0 (r + 1) - c (r + 1)) - (p 0 (r + 1) - p 2 (r + 1)) * (p 0 (r + 2) - c (r + 2)))
        ((p 0 (r + 2) - p 2 (r + 2)) * (p 1 (r + 1) - c (r + 1)) - (p 0 (r + 1) - p 2 (r + 1)) * (p 1 (r + 2) - c (r + 2)))
        ((p 0 (r + 2) - p 2 (r + 2)) * (p 2 (r + 1) - c (r + 1)) - (p 0 (r + 1) - p 2 (r + 1)) * (p 2 (r + 2) - c (r + 2)))
        (e (r + 1) * |p 0 (r + 2) - p 2 (r + 2)| + e (r + 2) * |p 0 (r + 1) - p 2 (r + 1)|) by
      fin_cases r
      · exact c0
      · exact c1
      · exact c2)
    have flip : ∀ l m : Fin 3, Ov ((p m (r + 2) - p l (r + 2)) * (p 0 (r + 1) - c (r + 1)) - (p m (r + 1) - p l (r + 1)) * (p 0 (r + 2) - c (r + 2)))
        ((p m (r + 2) - p l (r + 2)) * (p 1 (r + 1) - c (r + 1)) - (p m (r + 1) - p l (r + 1)) * (p 1 (r + 2) - c (r + 2)))
        ((p m (r + 2) - p l (r + 2)) * (p 2 (r + 1) - c (r + 1)) - (p m (r + 1) - p l (r + 1)) * (p 2 (r + 2) - c (r + 2)))
        (e (r + 1) * |p m (r + 2) - p l (r + 2)| + e (r + 2) * |p m (r + 1) - p l (r + 1)|) →
        Ov ((p l (r + 2) - p m (r + 2)) * (p 0 (r + 1) - c (r + 1)) - (p l (r + 1) - p m (r + 1)) * (p 0 (r + 2) - c (r + 2)))
        ((p l (r + 2) - p m (r + 2)) * (p 1 (r + 1) - c (r + 1)) - (p l (r + 1) - p m (r + 1)) * (p 1 (r + 2) - c (r + 2)))
        ((p l (r + 2) - p m (r + 2)) * (p 2 (r + 1) - c (r + 1)) - (p l (r + 1) - p m (r + 1)) * (p 2 (r + 2) - c (r + 2)))
        (e (r + 1) * |p l (r + 2) - p m (r + 2)| + e (r + 2) * |p l (r + 1) - p m (r + 1)|) := by
      intro l m h
      have := neg _ _ (_, _) (_, _) (_, _) _ _ h
      rw [neg_sub, neg_sub] at this
      exact this
    fin_cases l <;> fin_cases m
    · exact absurd rfl hlm
    · exact k01 r
    · exact flip 2 0 (k20 r)
    · exact flip 0 1 (k01 r)
    · exact absurd rfl hlm
    · exact k12 r
    · exact k20 r
    · exact flip 1 2 (k12 r)
    · exact absurd rfl hlm
  · intro h
    exact ⟨⟨⟨h 0 1 (by decide) 0, h 0 1 (by decide) 1⟩, h 0 1 (by decide) 2⟩,
      ⟨⟨h 1 2 (by decide) 0, h 1 2 (by decide) 1⟩, h 1 2 (by decide) 2⟩,
      ⟨h 2 0 (by decide) 0, h 2 0 (by decide) 1⟩, h 2 0 (by decide) 2⟩

theorem proper_shift {p0 p1 p2 c : Vec} (h : Proper p0 p1 p2) :
    Proper (fun i => p0 i - c i) (fun i => p1 i - c i) (fun i => p2 i - c i) := by
  rw [proper_iff] at *
  convert h using 3 <;> ring

/-- The box and triangle test is exact. -/
theorem intersectsTri_iff {b : Box} (he : ∀ i, 0 ≤ b.extents i) {p : Fin 3 → Vec} (hp : Proper (p 0) (p 1) (p 2)) :
    b.intersectsTri (p 0) (p 1) (p 2) = true ↔ ∃ u v w : ℝ, 0 ≤ u ∧ 0 ≤ v ∧ 0 ≤ w ∧ u + v + w = 1 ∧
      ∀ i, |u * (p 0 i - b.center i) + v * (p 1 i - b.center i) + w * (p 2 i - b.center i)| ≤ b.extents i := by
  have h1 : b.intersectsTri (p 0) (p 1) (p 2) = true ↔ Passes (fun k i => p k i - b.center i) b.extents := by
    unfold Box.intersectsTri intersectsTriMinMax
    have f := fun i => face_iff (c := b.center) (e := b.extents) i (p 0) (p 1) (p 2)
    have n := normal_iff (c := b.center) he hp
    have g := edges_iff (c := b.center) he p
    constructor
    · intro h
      split_ifs at h with k1 k2 k3
      rw [Bool.not_eq_false] at k1 k2 k3
      simp only [akenineMoller1, Bool.and_eq_true] at k1
      refine ⟨fun i => ?_, n.mp k2, g.mp k3⟩
      fin_cases i
      · exact (f 0).mp k1.1.1
      · exact (f 1).mp k1.1.2
      · exact (f 2).mp k1.2
    · rintro ⟨k1, k2, k3⟩
      have a1 : akenineMoller1 (fun i => b.center i - b.extents i) (fun i => b.center i + b.extents i) (p 0) (p 1) (p 2) = true := by
        simp only [akenineMoller1, Bool.and_eq_true]
        exact ⟨⟨(f 0).mpr (k1 0), (f 1).mpr (k1 1)⟩, (f 2).mpr (k1 2)⟩
      rw [if_neg (by rw [a1]; decide), if_neg (by rw [n.mpr k2]; decide), if_neg (by rw [g.mpr k3]; decide)]
  rw [h1]
  exact ⟨fun h => passes_meets he (proper_shift hp) h, fun h => meets_passes h⟩

end Verif.Proofs.BoxTri
