import Verif.Model.Obb
import Verif.Proofs.Boxes
import Verif.Proofs.BoxTri
import Verif.Proofs.Sphere
import Mathlib.LinearAlgebra.Matrix.NonsingularInverse

/-!
# Lemmas about oriented bounding boxes
-/

namespace Verif.Proofs.Obb

open Verif.Model.Matrix Verif.Model.Vector Verif.Model.Transform Verif.Model.Geometry Verif.Model.Boxes Verif.Model.Obb
open Verif.Proofs.Vector Verif.Proofs.Transform Verif.Proofs.Geometry Verif.Proofs.Boxes Verif.Proofs.BoxTri Verif.Spec.Geometry

open scoped Matrix

/-- The point with coordinates `t` in the frame of the box. -/
def pt (c : Point) (u : Fin 3 → Point) (t0 t1 t2 : ℝ) : Point := fun i => c i + t0 * u 0 i + t1 * u 1 i + t2 * u 2 i

theorem mem_obox (c e : Point) (u : Fin 3 → Point) (x : Point) :
    x ∈ orientedBox c e u ↔ ∃ t0 t1 t2 : ℝ, |t0| ≤ e 0 ∧ |t1| ≤ e 1 ∧ |t2| ≤ e 2 ∧ x = pt c u t0 t1 t2 := by
  constructor
  · rintro ⟨t, ht, rfl⟩
    refine ⟨t 0, t 1, t 2, ht 0, ht 1, ht 2, ?_⟩
    funext i
    simp only [Pi.add_apply, Finset.sum_apply, Pi.smul_apply, smul_eq_mul, Fin.sum_univ_three, pt]
    ring
  · rintro ⟨t0, t1, t2, h0, h1, h2, rfl⟩
    refine ⟨![t0, t1, t2], ?_, ?_⟩
    · intro i; fin_cases i <;> assumption
    · funext i
      simp only [Pi.add_apply, Finset.sum_apply, Pi.smul_apply, smul_eq_mul, Fin.sum_univ_three, pt,
        Matrix.cons_val_zero, Matrix.cons_val_one, Matrix.cons_val]
      ring

/-- Three mutually orthogonal unit vectors. -/
def Frame (u : Fin 3 → Point) : Prop := ∀ i j, u i ⬝ᵥ u j = if i = j then 1 else 0

theorem frame_rows {u : Fin 3 → Point} (h : Frame u) (i k : Fin 3) :
    u 0 i * u 0 k + u 1 i * u 1 k + u 2 i * u 2 k = if i = k then 1 else 0 := by
  let A : Matrix (Fin 3) (Fin 3) ℝ := Matrix.of u
  have h1 : A * Matrix.transpose A = 1 := by
    ext i j
    rw [Matrix.mul_apply, Matrix.one_apply, ← h i j]
    rfl
  have h2 : Matrix.transpose A * A = 1 := mul_eq_one_comm.mp h1
  have := congrFun (congrFun h2 i) k
  rw [Matrix.mul_apply, Matrix.one_apply, Fin.sum_univ_three] at this
  exact this

theorem frame_expand {u : Fin 3 → Point} (h : Frame u) (v : Point) (i : Fin 3) :
    v i = (v ⬝ᵥ u 0) * u 0 i + (v ⬝ᵥ u 1) * u 1 i + (v ⬝ᵥ u 2) * u 2 i := by
  have h0 := frame_rows h i 0
  have h1 := frame_rows h i 1
  have h2 := frame_rows h i 2
  simp only [dp3]
  have : v i = (if i = 0 then 1 else 0) * v 0 + (if i = 1 then 1 else 0) * v 1 + (if i = 2 then 1 else 0) * v 2 := by
    fin_cases i <;> simp
  rw [← h0, ← h1, ← h2] at this
  rw [this]; ring

theorem parseval {u : Fin 3 → Point} (h : Frame u) (v : Point) :
    v ⬝ᵥ v = (v ⬝ᵥ u 0) ^ 2 + (v ⬝ᵥ u 1) ^ 2 + (v ⬝ᵥ u 2) ^ 2 := by
  have e0 := frame_expand h v 0
  have e1 := frame_expand h v 1
  have e2 := frame_expand h v 2
  have d0 : v ⬝ᵥ u 0 = v 0 * u 0 0 + v 1 * u 0 1 + v 2 * u 0 2 := dp3 _ _
  have d1 : v ⬝ᵥ u 1 = v 0 * u 1 0 + v 1 * u 1 1 + v 2 * u 1 2 := dp3 _ _
  have d2 : v ⬝ᵥ u 2 = v 0 * u 2 0 + v 1 * u 2 1 + v 2 * u 2 2 := dp3 _ _
  rw [dp3 v v]
  linear_combination v 0 * e0 + v 1 * e1 + v 2 * e2 - (v ⬝ᵥ u 0) * d0 - (v ⬝ᵥ u 1) * d1 - (v ⬝ᵥ u 2) * d2

/-- The coordinates of a point in an orthonormal frame. -/
theorem coord {c : Point} {u : Fin 3 → Point} (h : Frame u) (t0 t1 t2 : ℝ) :
    (fun i => pt c u t0 t1 t2 i - c i : Point) ⬝ᵥ u 0 = t0 ∧ (fun i => pt c u t0 t1 t2 i - c i : Point) ⬝ᵥ u 1 = t1 ∧
      (fun i => pt c u t0 t1 t2 i - c i : Point) ⬝ᵥ u 2 = t2 := by
  have h00 := h 0 0
  have h01 := h 0 1
  have h02 := h 0 2
  have h11 := h 1 1
  have h12 := h 1 2
  have h22 := h 2 2
  simp only [dp3, ↓reduceIte, Fin.reduceEq, Fin.isValue, zero_ne_one] at h00 h01 h02 h11 h12 h22
  simp only [dp3, pt]
  refine ⟨?_, ?_, ?_⟩
  · linear_combination t0 * h00 + t1 * h01 + t2 * h02
  · linear_combination t0 * h01 + t1 * h11 + t2 * h12
  · linear_combination t0 * h02 + t1 * h12 + t2 * h22

theorem mem_obox_frame {c e : Point} {u : Fin 3 → Point} (h : Frame u) (x : Point) :
    x ∈ orientedBox c e u ↔ |(fun i => x i - c i : Point) ⬝ᵥ u 0| ≤ e 0 ∧ |(fun i => x i - c i : Point) ⬝ᵥ u 1| ≤ e 1 ∧
      |(fun i => x i - c i : Point) ⬝ᵥ u 2| ≤ e 2 := by
  rw [mem_obox]
  constructor
  · rintro ⟨t0, t1, t2, h0, h1, h2, rfl⟩
    obtain ⟨e0, e1, e2⟩ := coord (c := c) h t0 t1 t2
    rw [e0, e1, e2]; exact ⟨h0, h1, h2⟩
  · rintro ⟨h0, h1, h2⟩
    refine ⟨_, _, _, h0, h1, h2, ?_⟩
    funext i
    have := frame_expand h (fun i => x i - c i) i
    simp only [pt]
    linarith

theorem pt_combo (c : Point) (u : Fin 3 → Point) {s0 s1 s2 t0 t1 t2 a b : ℝ} (h : a + b = 1) :
    a • pt c u s0 s1 s2 + b • pt c u t0 t1 t2 = pt c u (a * s0 + b * t0) (a * s1 + b * t1) (a * s2 + b * t2) := by
  funext i
  simp only [Pi.add_apply, Pi.smul_apply, smul_eq_mul, pt]
  linear_combination c i * h

theorem abs_combo {s t a b e : ℝ} (ha : 0 ≤ a) (hb : 0 ≤ b) (h : a + b = 1) (hs : |s| ≤ e) (ht : |t| ≤ e) : |a * s + b * t| ≤ e := by
  rw [abs_le] at *
  constructor <;> nlinarith

theorem obox_convex (c e : Point) (u : Fin 3 → Point) : Convex ℝ (orientedBox c e u) := by
  intro x hx y hy a b ha hb hab
  rw [mem_obox] at *
  obtain ⟨s0, s1, s2, h0, h1, h2, rfl⟩ := hx
  obtain ⟨t0, t1, t2, k0, k1, k2, rfl⟩ := hy
  exact ⟨_, _, _, abs_combo ha hb hab h0 k0, abs_combo ha hb hab h1 k1, abs_combo ha hb hab h2 k2, pt_combo c u hab⟩

theorem between {t e : ℝ} (h : |t| ≤ e) : ∃ a b : ℝ, 0 ≤ a ∧ 0 ≤ b ∧ a + b = 1 ∧ t = a * -e + b * e := by
  rw [abs_le] at h
  rcases eq_or_lt_of_le (show -e ≤ e by linarith) with h0 | h0
  · exact ⟨1, 0, by norm_num, le_rfl, by norm_num, by linarith⟩
  · have : 0 < 2 * e := by linarith
    have he : e ≠ 0 := by linarith
    refine ⟨(e - t) / (2 * e), (e + t) / (2 * e), div_nonneg (by linarith) this.le, div_nonneg (by linarith) this.le, ?_, ?_⟩
    · field_simp; ring
    · field_simp; ring

/-- A convex set with all eight corners has the whole box. -/
theorem obox_subset {c e : Point} {u : Fin 3 → Point} {C : Set Point} (hC : Convex ℝ C)
    (h : ∀ s0 s1 s2 : Bool, pt c u (if s0 then e 0 else -e 0) (if s1 then e 1 else -e 1) (if s2 then e 2 else -e 2) ∈ C) :
    orientedBox c e u ⊆ C := by
  intro x hx
  obtain ⟨t0, t1, t2, h0, h1, h2, rfl⟩ := (mem_obox _ _ _ _).mp hx
  obtain ⟨a0, b0, ha0, hb0, hab0, rfl⟩ := between h0
  obtain ⟨a1, b1, ha1, hb1, hab1, rfl⟩ := between h1
  obtain ⟨a2, b2, ha2, hb2, hab2, rfl⟩ := between h2
  have same : ∀ {a b : ℝ}, a + b = 1 → ∀ t : ℝ, a * t + b * t = t := fun h t => by rw [← add_mul, h, one_mul]
  have k2 : ∀ s0 s1 : Bool, pt c u (if s0 then e 0 else -e 0) (if s1 then e 1 else -e 1) (a2 * -e 2 + b2 * e 2) ∈ C := by
    intro s0 s1
    have := hC (h s0 s1 false) (h s0 s1 true) ha2 hb2 hab2
    rw [pt_combo c u hab2, same hab2, same hab2] at this
    simpa using this
  have k1 : ∀ s0 : Bool, pt c u (if s0 then e 0 else -e 0) (a1 * -e 1 + b1 * e 1) (a2 * -e 2 + b2 * e 2) ∈ C := by
    intro s0
    have := hC (k2 s0 false) (k2 s0 true) ha1 hb1 hab1
    rw [pt_combo c u hab1, same hab1, same hab1] at this
    simpa using this
  have := hC (k1 false) (k1 true) ha0 hb0 hab0
  rw [pt_combo c u hab0, same hab0, same hab0] at this
  simpa using this

theorem corner_eq (b : Obb) (k : Corner) : b.corner k = pt b.center b.axis (if k.x then b.extents 0 else -b.extents 0)
    (if k.y then b.extents 1 else -b.extents 1) (if k.z then b.extents 2 else -b.extents 2) := by
  obtain ⟨x, y, z⟩ := k
  funext i
  cases x <;> cases y <;> cases z <;> simp [Obb.corner, cornerOffset, pt]

theorem abs_sign {e : ℝ} (h : 0 ≤ e) (s : Bool) : |if s then e else -e| ≤ e := by
  cases s <;> simp [abs_of_nonneg h]

theorem corner_mem {b : Obb} (he : ∀ i, 0 ≤ b.extents i) (k : Corner) : b.corner k ∈ orientedBox b.center b.extents b.axis := by
  rw [mem_obox]
  exact ⟨_, _, _, abs_sign (he 0) _, abs_sign (he 1) _, abs_sign (he 2) _, corner_eq b k⟩

theorem sat_mem (k : Corner) : k = ⟨false, false, false⟩ ∨ k ∈ satOrder := by
  obtain ⟨x, y, z⟩ := k
  cases x <;> cases y <;> cases z <;> simp [satOrder]

theorem contains_mem (k : Corner) : k = ⟨false, false, false⟩ ∨ k ∈ containsOrder := by
  obtain ⟨x, y, z⟩ := k
  cases x <;> cases y <;> cases z <;> simp [containsOrder]

theorem dot_convex_lt (α : Point) (a : ℝ) : Convex ℝ {z : Point | a < α ⬝ᵥ z} := by
  intro x hx y hy s t hs ht hst
  have hx : a < α ⬝ᵥ x := hx
  have hy : a < α ⬝ᵥ y := hy
  show a < α ⬝ᵥ (s • x + t • y)
  rw [dotProduct_add, dotProduct_smul, dotProduct_smul, smul_eq_mul, smul_eq_mul]
  rcases eq_or_lt_of_le hs with h0 | h0
  · have : t = 1 := by linarith
    rw [← h0, this]; linarith
  · have h1 := mul_lt_mul_of_pos_left hx h0
    have h2 := mul_le_mul_of_nonneg_left hy.le ht
    have : a = s * a + t * a := by rw [← add_mul, hst, one_mul]
    linarith

theorem dot_convex_gt (α : Point) (a : ℝ) : Convex ℝ {z : Point | α ⬝ᵥ z < a} := by
  have := dot_convex_lt (-α) (-a)
  simpa only [neg_dotProduct, neg_lt_neg_iff] using this

/-- On a set inside the convex hull of corners, a linear functional is at least its least value at a corner. -/
theorem some_le {S : Set Point} {pts : List Point} (h : ∀ C, Convex ℝ C → (∀ p ∈ pts, p ∈ C) → S ⊆ C) (α : Point) {x : Point}
    (hx : x ∈ S) : (∃ p ∈ pts, α ⬝ᵥ p ≤ α ⬝ᵥ x) ∧ ∃ p ∈ pts, α ⬝ᵥ x ≤ α ⬝ᵥ p := by
  constructor
  · by_contra hc
    push Not at hc
    exact lt_irrefl (α ⬝ᵥ x) (h _ (dot_convex_lt α (α ⬝ᵥ x)) hc hx)
  · by_contra hc
    push Not at hc
    exact lt_irrefl (α ⬝ᵥ x) (h _ (dot_convex_gt α (α ⬝ᵥ x)) hc hx)

/-- Two convex sets, with points of either order along a functional, have points with the same value. -/
theorem common_value {S T : Set Point} (hS : Convex ℝ S) (hT : Convex ℝ T) (α : Point) {x1 x2 y1 y2 : Point} (hx1 : x1 ∈ S)
    (hx2 : x2 ∈ S) (hy1 : y1 ∈ T) (hy2 : y2 ∈ T) (h1 : α ⬝ᵥ x1 ≤ α ⬝ᵥ y1) (h2 : α ⬝ᵥ y2 ≤ α ⬝ᵥ x2) :
    ∃ x ∈ S, ∃ y ∈ T, α ⬝ᵥ x = α ⬝ᵥ y := by
  rcases eq_or_lt_of_le (show 0 ≤ (α ⬝ᵥ y1 - α ⬝ᵥ x1) + (α ⬝ᵥ x2 - α ⬝ᵥ y2) by linarith) with h0 | h0
  · exact ⟨x1, hx1, y1, hy1, by linarith⟩
  · generalize hD : (α ⬝ᵥ y1 - α ⬝ᵥ x1) + (α ⬝ᵥ x2 - α ⬝ᵥ y2) = D at h0
    have ha : 0 ≤ (α ⬝ᵥ x2 - α ⬝ᵥ y2) / D := div_nonneg (by linarith) h0.le
    have hb : 0 ≤ (α ⬝ᵥ y1 - α ⬝ᵥ x1) / D := div_nonneg (by linarith) h0.le
    have hab : (α ⬝ᵥ x2 - α ⬝ᵥ y2) / D + (α ⬝ᵥ y1 - α ⬝ᵥ x1) / D = 1 := by
      rw [← add_div, div_eq_one_iff_eq h0.ne']; linarith
    refine ⟨_, hS hx1 hx2 ha hb hab, _, hT hy1 hy2 ha hb hab, ?_⟩
    simp only [dotProduct_add, dotProduct_smul, smul_eq_mul]
    generalize α ⬝ᵥ x1 = p at *
    generalize α ⬝ᵥ x2 = q at *
    generalize α ⬝ᵥ y1 = r at *
    generalize α ⬝ᵥ y2 = s at *
    field_simp
    ring

/-- The separating-axis test of two convex sets spanned by points, along one axis. -/
theorem sat_iff {S T : Set Point} (hS : Convex ℝ S) (hT : Convex ℝ T) {p q : Vec} {ps qs : List Vec}
    (hp : ∀ x ∈ p :: ps, x ∈ S) (hq : ∀ y ∈ q :: qs, y ∈ T)
    (hS' : ∀ C, Convex ℝ C → (∀ x ∈ p :: ps, x ∈ C) → S ⊆ C) (hT' : ∀ C, Convex ℝ C → (∀ y ∈ q :: qs, y ∈ C) → T ⊆ C) (α : Vec) :
    (satOf α p ps).testOther (satOf α q qs) = true ↔ ∃ x ∈ S, ∃ y ∈ T, α ⬝ᵥ x = α ⬝ᵥ y := by
  have mn : ∀ (r : Vec) (rs : List Vec) (a : ℝ), (satOf α r rs).min ≤ a ↔ ∃ z ∈ r :: rs, α ⬝ᵥ z ≤ a := by
    intro r rs a
    rw [satOf, fold_min, List.exists_mem_cons_iff]
    simp only [dot_dp]
  have mx : ∀ (r : Vec) (rs : List Vec) (a : ℝ), a ≤ (satOf α r rs).max ↔ ∃ z ∈ r :: rs, a ≤ α ⬝ᵥ z := by
    intro r rs a
    rw [satOf, fold_max, List.exists_mem_cons_iff]
    simp only [dot_dp]
  simp only [Sat.testOther, Bool.and_eq_true, decide_eq_true_eq, ge_iff_le]
  rw [mn, mn]
  constructor
  · rintro ⟨⟨x1, hx1, h1⟩, y2, hy2, h2⟩
    obtain ⟨y1, hy1, h1⟩ := (mx _ _ _).mp h1
    obtain ⟨x2, hx2, h2⟩ := (mx _ _ _).mp h2
    exact common_value hS hT α (hp _ hx1) (hp _ hx2) (hq _ hy1) (hq _ hy2) h1 h2
  · rintro ⟨x, hx, y, hy, h⟩
    obtain ⟨⟨x1, hx1, h1⟩, x2, hx2, h2⟩ := some_le hS' α hx
    obtain ⟨⟨y1, hy1, h3⟩, y2, hy2, h4⟩ := some_le hT' α hy
    exact ⟨⟨x1, hx1, (mx _ _ _).mpr ⟨y2, hy2, by linarith⟩⟩, y1, hy1, (mx _ _ _).mpr ⟨x2, hx2, by linarith⟩⟩

theorem obb_corners {b : Obb} (he : ∀ i, 0 ≤ b.extents i) (l : List Corner) :
    ∀ x ∈ b.minCorner :: l.map b.corner, x ∈ orientedBox b.center b.extents b.axis := by
  intro x hx
  rcases List.mem_cons.mp hx with rfl | hx
  · exact corner_mem he _
  · obtain ⟨k, -, rfl⟩ := List.mem_map.mp hx
    exact corner_mem he _

theorem obb_spanned {b : Obb} {l : List Corner} (hl : ∀ k : Corner, k = ⟨false, false, false⟩ ∨ k ∈ l) (C : Set Point) (hC : Convex ℝ C)
    (h : ∀ x ∈ b.minCorner :: l.map b.corner, x ∈ C) : orientedBox b.center b.extents b.axis ⊆ C := by
  refine obox_subset hC fun s0 s1 s2 => ?_
  have := corner_eq b ⟨s0, s1, s2⟩
  rw [← this]
  apply h
  rcases hl ⟨s0, s1, s2⟩ with e | e
  · rw [e]; exact List.mem_cons_self
  · exact List.mem_cons_of_mem _ (List.mem_map_of_mem e)

/-- An axis-aligned box as an oriented one. -/
def ofBox (b : Box) : Obb := ⟨b.center, b.extents, fun i j => if i = j then 1 else 0⟩

theorem ofBox_corner (b : Box) (k : Corner) : (ofBox b).corner k = b.corner k := by
  obtain ⟨x, y, z⟩ := k
  funext i
  cases x <;> cases y <;> cases z <;> fin_cases i <;> simp [Obb.corner, Box.corner, cornerOffset, ofBox, Obb.axis]

theorem ofBox_region (b : Box) : orientedBox (ofBox b).center (ofBox b).extents (ofBox b).axis = box b.center b.extents := by
  ext x
  rw [mem_obox]
  constructor
  · rintro ⟨t0, t1, t2, h0, h1, h2, rfl⟩
    intro i
    fin_cases i <;> simp only [pt, ofBox, Obb.axis] <;> simp <;> assumption
  · intro h
    refine ⟨x 0 - b.center 0, x 1 - b.center 1, x 2 - b.center 2, h 0, h 1, h 2, ?_⟩
    funext i
    fin_cases i <;> simp [pt, ofBox, Obb.axis]

theorem parseval2 {u : Fin 3 → Point} (h : Frame u) (v w : Point) :
    v ⬝ᵥ w = (v ⬝ᵥ u 0) * (w ⬝ᵥ u 0) + (v ⬝ᵥ u 1) * (w ⬝ᵥ u 1) + (v ⬝ᵥ u 2) * (w ⬝ᵥ u 2) := by
  have e0 := frame_expand h v 0
  have e1 := frame_expand h v 1
  have e2 := frame_expand h v 2
  have d0 : w ⬝ᵥ u 0 = w 0 * u 0 0 + w 1 * u 0 1 + w 2 * u 0 2 := dp3 _ _
  have d1 : w ⬝ᵥ u 1 = w 0 * u 1 0 + w 1 * u 1 1 + w 2 * u 1 2 := dp3 _ _
  have d2 : w ⬝ᵥ u 2 = w 0 * u 2 0 + w 1 * u 2 1 + w 2 * u 2 2 := dp3 _ _
  rw [dp3 v w]
  linear_combination w 0 * e0 + w 1 * e1 + w 2 * e2 - (v ⬝ᵥ u 0) * d0 - (v ⬝ᵥ u 1) * d1 - (v ⬝ᵥ u 2) * d2

theorem dist_coord {c : Point} {u : Fin 3 → Point} (h : Frame u) (p : Point) (t0 t1 t2 : ℝ) :
    sqDist p (pt c u t0 t1 t2) = (t0 - (fun i => p i - c i : Point) ⬝ᵥ u 0) ^ 2 + (t1 - (fun i => p i - c i : Point) ⬝ᵥ u 1) ^ 2 +
      (t2 - (fun i => p i - c i : Point) ⬝ᵥ u 2) ^ 2 := by
  obtain ⟨k0, k1, k2⟩ := coord (c := c) h t0 t1 t2
  have hp := parseval h (fun i => pt c u t0 t1 t2 i - p i)
  have sub : ∀ j, (fun i => pt c u t0 t1 t2 i - p i : Point) ⬝ᵥ u j =
      (fun i => pt c u t0 t1 t2 i - c i : Point) ⬝ᵥ u j - (fun i => p i - c i : Point) ⬝ᵥ u j := by
    intro j; simp only [dp3]; ring
  rw [sub, sub, sub, k0, k1, k2] at hp
  rw [← hp, sq3, dp3]; ring

/-- Coordinates in an orthonormal frame keep three points off a line. -/
theorem proper_local {u : Fin 3 → Point} (h : Frame u) (c : Point) {p0 p1 p2 : Point} (hp : Proper p0 p1 p2) :
    Proper (fun j => (fun i => p0 i - c i : Point) ⬝ᵥ u j) (fun j => (fun i => p1 i - c i : Point) ⬝ᵥ u j)
      (fun j => (fun i => p2 i - c i : Point) ⬝ᵥ u j) := by
  have lagrange : ∀ v w : Point, (cross v w 0) ^ 2 + (cross v w 1) ^ 2 + (cross v w 2) ^ 2 =
      (v ⬝ᵥ v) * (w ⬝ᵥ w) - (v ⬝ᵥ w) ^ 2 := by
    intro v w
    obtain ⟨c0, c1, c2⟩ := cross3 v w
    rw [c0, c1, c2]; simp only [dp3]; ring
  have sub : ∀ (p : Point), (fun j => (fun i => p i - c i : Point) ⬝ᵥ u j - (fun i => p0 i - c i : Point) ⬝ᵥ u j : Point) =
      fun j => (fun i => p i - p0 i : Point) ⬝ᵥ u j := by
    intro p; funext j; simp only [dp3]; ring
  rw [proper_iff] at *
  rw [sub, sub]
  intro h0
  apply hp
  have l1 := lagrange (fun i => p1 i - p0 i) (fun i => p2 i - p0 i)
  have l2 := lagrange (fun j => (fun i => p1 i - p0 i : Point) ⬝ᵥ u j) (fun j => (fun i => p2 i - p0 i : Point) ⬝ᵥ u j)
  rw [h0] at l2
  have same : ∀ v w : Point, (fun j => v ⬝ᵥ u j : Point) ⬝ᵥ (fun j => w ⬝ᵥ u j : Point) = v ⬝ᵥ w := by
    intro v w; rw [parseval2 h v w, dp3]
  rw [same, same, same, ← l1] at l2
  simp only [Pi.zero_apply] at l2
  generalize cross (fun i => p1 i - p0 i) (fun i => p2 i - p0 i) = w at *
  have a0 := sq_nonneg (w 0)
  have a1 := sq_nonneg (w 1)
  have a2 := sq_nonneg (w 2)
  rw [vec_zero]
  refine ⟨?_, ?_, ?_⟩ <;> exact pow_eq_zero_iff (two_ne_zero) |>.mp (by linarith)

/-- The separating-axis test along a coordinate, of a convex set spanned by points and an interval. -/
theorem satIndex_iff {S T : Set Point} (hS : Convex ℝ S) (hT : Convex ℝ T) {p : Vec} {ps : List Vec} {i : Fin 3} {lo hi : Point}
    (hp : ∀ x ∈ p :: ps, x ∈ S) (hS' : ∀ C, Convex ℝ C → (∀ x ∈ p :: ps, x ∈ C) → S ⊆ C) (hlo : lo ∈ T) (hhi : hi ∈ T)
    (hT' : ∀ y ∈ T, lo i ≤ y i ∧ y i ≤ hi i) :
    (satOfIndex i p ps).testRange (lo i) (hi i) = true ↔ ∃ x ∈ S, ∃ y ∈ T, (Pi.single i 1 : Point) ⬝ᵥ x = (Pi.single i 1 : Point) ⬝ᵥ y := by
  simp only [Sat.testRange, Bool.and_eq_true, decide_eq_true_eq, ge_iff_le]
  rw [satOfIndex, fold_min, fold_max]
  simp only [mul_one]
  rw [← List.exists_mem_cons_iff (p := fun q : Vec => q i ≤ hi i), ← List.exists_mem_cons_iff (p := fun q : Vec => lo i ≤ q i)]
  have d : ∀ x : Point, (Pi.single i 1 : Point) ⬝ᵥ x = x i := fun x => single_one_dotProduct i x
  constructor
  · rintro ⟨⟨x1, hx1, h1⟩, x2, hx2, h2⟩
    exact common_value hS hT _ (hp _ hx1) (hp _ hx2) hhi hlo (by rw [d, d]; exact h1) (by rw [d, d]; exact h2)
  · rintro ⟨x, hx, y, hy, h⟩
    obtain ⟨⟨x1, hx1, h1⟩, x2, hx2, h2⟩ := some_le hS' (Pi.single i 1) hx
    rw [d, d] at h h1 h2
    have := hT' y hy
    exact ⟨⟨x1, hx1, by linarith⟩, x2, hx2, by linarith⟩

/-! ### transformation -/

/-- The linear part of a transform. -/
def lin (tx : Mat ℝ 4 4) (v : Point) : Point := fun i => tx i.castSucc 0 * v 0 + tx i.castSucc 1 * v 1 + tx i.castSucc 2 * v 2

theorem tx_eq {tx : Mat ℝ 4 4} (h : ∀ j : Fin 4, tx 3 j = if j = 3 then 1 else 0) (x : Point) (i : Fin 3) :
    transformPosition44 tx x i = lin tx x i + tx i.castSucc 3 := by
  rw [tp3 tx h]; fin_cases i <;> rfl

theorem lin_smul (tx : Mat ℝ 4 4) (k : ℝ) (v : Point) : lin tx (fun i => v i * k) = fun i => lin tx v i * k := by
  funext i; simp only [lin]; ring

theorem side_eq {tx : Mat ℝ 4 4} (h : ∀ j : Fin 4, tx 3 j = if j = 3 then 1 else 0) (c u : Point) (k : ℝ) :
    (fun i => transformPosition44 tx (fun i => c i + u i * k) i - transformPosition44 tx c i : Point) = fun i => lin tx u i * k := by
  funext i
  rw [tx_eq h, tx_eq h]
  simp only [lin]; ring

theorem tx_pt {tx : Mat ℝ 4 4} (h : ∀ j : Fin 4, tx 3 j = if j = 3 then 1 else 0) (c : Point) (u : Fin 3 → Point) (t0 t1 t2 : ℝ) :
    transformPosition44 tx (pt c u t0 t1 t2) = pt (transformPosition44 tx c) (fun j => lin tx (u j)) t0 t1 t2 := by
  funext i
  simp only [pt, tx_eq h]
  simp only [lin, pt]
  ring

/-- Rescaling the half-sides and the axes against each other. -/
theorem obox_rescale {c e e' : Point} {u u' : Fin 3 → Point} (he : ∀ j, 0 < e j) (he' : ∀ j, 0 < e' j)
    (h : ∀ j i, u' j i * e' j = u j i * e j) : orientedBox c e' u' = orientedBox c e u := by
  have sub : ∀ {e e' : Point} {u u' : Fin 3 → Point}, (∀ j, 0 < e j) → (∀ j, 0 < e' j) → (∀ j i, u' j i * e' j = u j i * e j) →
      orientedBox c e' u' ⊆ orientedBox c e u := by
    intro e e' u u' he he' h x hx
    obtain ⟨t0, t1, t2, h0, h1, h2, rfl⟩ := (mem_obox _ _ _ _).mp hx
    have bd : ∀ (j : Fin 3) (t : ℝ), |t| ≤ e' j → |t * e j / e' j| ≤ e j := by
      intro j t ht
      rw [abs_div, abs_mul, abs_of_pos (he j), abs_of_pos (he' j), div_le_iff₀ (he' j), mul_comm]
      exact mul_le_mul_of_nonneg_left ht (he j).le
    have eq : ∀ (j : Fin 3) (t : ℝ) (i : Fin 3), t * u' j i = t * e j / e' j * u j i := by
      intro j t i
      have := (he' j).ne'
      have := h j i
      field_simp
      linear_combination t * this
    refine (mem_obox _ _ _ _).mpr ⟨_, _, _, bd 0 _ h0, bd 1 _ h1, bd 2 _ h2, ?_⟩
    funext i
    simp only [pt, eq 0 t0, eq 1 t1, eq 2 t2]
  exact subset_antisymm (sub he he' h) (sub he' he fun j i => (h j i).symm)

theorem tx_obox {tx : Mat ℝ 4 4} (h : ∀ j : Fin 4, tx 3 j = if j = 3 then 1 else 0) (c e : Point) (u : Fin 3 → Point) :
    transformPosition44 tx '' orientedBox c e u = orientedBox (transformPosition44 tx c) e (fun j => lin tx (u j)) := by
  ext x
  rw [mem_obox]
  constructor
  · rintro ⟨y, hy, rfl⟩
    obtain ⟨t0, t1, t2, h0, h1, h2, rfl⟩ := (mem_obox _ _ _ _).mp hy
    exact ⟨t0, t1, t2, h0, h1, h2, tx_pt h _ _ _ _ _⟩
  · rintro ⟨t0, t1, t2, h0, h1, h2, rfl⟩
    exact ⟨_, (mem_obox _ _ _ _).mpr ⟨t0, t1, t2, h0, h1, h2, rfl⟩, tx_pt h _ _ _ _ _⟩

/-- A transform that multiplies all distances multiplies inner products. -/
theorem lin_dot {tx : Mat ℝ 4 4} (h : ∀ j : Fin 4, tx 3 j = if j = 3 then 1 else 0) {k : ℝ}
    (hk : ∀ x y, eDist (transformPosition44 tx x) (transformPosition44 tx y) = k * eDist x y) (v w : Point) :
    lin tx v ⬝ᵥ lin tx w = k ^ 2 * (v ⬝ᵥ w) := by
  have sq : ∀ v : Point, lin tx v ⬝ᵥ lin tx v = k ^ 2 * (v ⬝ᵥ v) := by
    intro v
    have := congrArg (· ^ 2) (hk v 0)
    simp only [mul_pow, Verif.Proofs.Sphere.sq_eDist, sq3, tx_eq h] at this
    rw [dp3, dp3]
    simp only [lin, Pi.zero_apply] at this ⊢
    linear_combination this
  have h1 := sq (fun i => v i + w i)
  have h2 := sq v
  have h3 := sq w
  have e : lin tx (fun i => v i + w i) = fun i => lin tx v i + lin tx w i := by funext i; simp only [lin]; ring
  rw [e] at h1
  simp only [dp3] at *
  linear_combination (h1 - h2 - h3) / 2

end Verif.Proofs.Obb
