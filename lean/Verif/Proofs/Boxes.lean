import Mathlib.Analysis.Convex.Radon
import Verif.Model.Boxes
import Verif.Proofs.Geometry
import Verif.Spec.Boxes

/-!
# Lemmas about axis-aligned boxes
-/

namespace Verif.Proofs.Boxes

open Verif.Model.Matrix Verif.Model.Vector Verif.Model.Transform Verif.Model.Geometry Verif.Model.Boxes
open Verif.Proofs.Vector Verif.Proofs.Transform Verif.Proofs.Geometry Verif.Spec.Geometry

theorem mem_box (c e x : Point) : x ∈ box c e ↔ ∀ i, c i - e i ≤ x i ∧ x i ≤ c i + e i := by
  show (∀ i, |x i - c i| ≤ e i) ↔ _
  refine forall_congr' fun i => ?_
  rw [abs_le]; constructor <;> rintro ⟨h1, h2⟩ <;> constructor <;> linarith

theorem minCorner_eq (b : Box) (i : Fin 3) : b.minCorner i = b.center i - b.extents i := by
  simp [Box.minCorner, Box.corner, cornerOffset]; ring

theorem maxCorner_eq (b : Box) (i : Fin 3) : b.maxCorner i = b.center i + b.extents i := by
  simp [Box.maxCorner, Box.corner, cornerOffset]

theorem mem_fromMinMax (lo hi x : Vec) : x ∈ box (fromMinMax lo hi).center (fromMinMax lo hi).extents ↔
    ∀ i, lo i ≤ x i ∧ x i ≤ hi i := by
  rw [mem_box]
  refine forall_congr' fun i => ?_
  simp only [fromMinMax]
  constructor <;> rintro ⟨h1, h2⟩ <;> constructor <;> linarith

theorem minMany_le (v1 v2 : Vec) (vs : List Vec) (i : Fin 3) (a : ℝ) :
    a ≤ minMany v1 v2 vs i ↔ ∀ v ∈ v1 :: v2 :: vs, a ≤ v i := by
  induction vs generalizing v1 v2 with
  | nil => simp [minMany, Model.Vector.min, smin_eq]
  | cons v vs ih => simp [minMany, Model.Vector.min, smin_eq, ih]

theorem le_maxMany (v1 v2 : Vec) (vs : List Vec) (i : Fin 3) (a : ℝ) :
    maxMany v1 v2 vs i ≤ a ↔ ∀ v ∈ v1 :: v2 :: vs, v i ≤ a := by
  induction vs generalizing v1 v2 with
  | nil => simp [maxMany, Model.Vector.max, smax_eq]
  | cons v vs ih => simp [maxMany, Model.Vector.max, smax_eq, ih]

theorem foldl_min_le (vs : List Vec) (v : Vec) (i : Fin 3) (a : ℝ) :
    a ≤ vs.foldl Model.Vector.min v i ↔ ∀ w ∈ v :: vs, a ≤ w i := by
  induction vs generalizing v with
  | nil => simp
  | cons w vs ih => rw [List.foldl_cons, ih]; simp [Model.Vector.min, smin_eq, and_assoc]

theorem foldl_max_le (vs : List Vec) (v : Vec) (i : Fin 3) (a : ℝ) :
    vs.foldl Model.Vector.max v i ≤ a ↔ ∀ w ∈ v :: vs, w i ≤ a := by
  induction vs generalizing v with
  | nil => simp
  | cons w vs ih => rw [List.foldl_cons, ih]; simp [Model.Vector.max, smax_eq, and_assoc]

/-- Bounds that are the extreme coordinates give the smallest box. -/
theorem tight {S : Set Point} {lo hi : Vec} (hlo : ∀ i a, a ≤ lo i ↔ ∀ v ∈ S, a ≤ v i)
    (hhi : ∀ i a, hi i ≤ a ↔ ∀ v ∈ S, v i ≤ a) :
    TightAround (box (fromMinMax lo hi).center (fromMinMax lo hi).extents) S := by
  constructor
  · intro x hx
    rw [mem_fromMinMax]
    exact fun i => ⟨(hlo i (lo i)).mp le_rfl x hx, (hhi i (hi i)).mp le_rfl x hx⟩
  · intro l h hS x hx
    rw [mem_fromMinMax] at hx
    exact ⟨fun i => le_trans ((hlo i _).mpr fun v hv => (hS hv).1 i) (hx i).1,
      fun i => le_trans (hx i).2 ((hhi i _).mpr fun v hv => (hS hv).2 i)⟩

theorem min_mem {c e : Point} (he : ∀ i, 0 ≤ e i) : (fun i => c i - e i) ∈ box c e := by
  rw [mem_box]; intro i; have := he i; constructor <;> linarith

theorem max_mem {c e : Point} (he : ∀ i, 0 ≤ e i) : (fun i => c i + e i) ∈ box c e := by
  rw [mem_box]; intro i; have := he i; constructor <;> linarith

theorem box_lower {c e : Point} (he : ∀ i, 0 ≤ e i) (i : Fin 3) (a : ℝ) : a ≤ c i - e i ↔ ∀ v ∈ box c e, a ≤ v i :=
  ⟨fun h _ hv => le_trans h ((mem_box _ _ _).mp hv i).1, fun h => h _ (min_mem he)⟩

theorem box_upper {c e : Point} (he : ∀ i, 0 ≤ e i) (i : Fin 3) (a : ℝ) : c i + e i ≤ a ↔ ∀ v ∈ box c e, v i ≤ a :=
  ⟨fun h _ hv => le_trans ((mem_box _ _ _).mp hv i).2 h, fun h => h _ (max_mem he)⟩

theorem minCorner_mem {b : Box} (he : ∀ i, 0 ≤ b.extents i) : b.minCorner ∈ box b.center b.extents := by
  have : b.minCorner = fun i => b.center i - b.extents i := funext (minCorner_eq b)
  rw [this]; exact min_mem he

theorem maxCorner_mem {b : Box} (he : ∀ i, 0 ≤ b.extents i) : b.maxCorner ∈ box b.center b.extents := by
  have : b.maxCorner = fun i => b.center i + b.extents i := funext (maxCorner_eq b)
  rw [this]; exact max_mem he

theorem contains_iff (b : Box) (p : Vec) : b.contains p = true ↔ p ∈ box b.center b.extents := by
  show _ ↔ ∀ i, |p i - b.center i| ≤ b.extents i
  simp [Box.contains, Fin.forall_fin_succ, and_assoc]

theorem box_convex (c e : Point) : Convex ℝ (box c e) := by
  intro x hx y hy a b ha hb hab
  rw [mem_box] at *
  intro i
  have h1 := hx i
  have h2 := hy i
  simp only [Pi.add_apply, Pi.smul_apply, smul_eq_mul]
  have : a = 1 - b := by linarith
  subst this
  constructor <;> nlinarith

theorem mul_between {t lo hi x : ℝ} (h1 : lo ≤ x) (h2 : x ≤ hi) :
    Min.min (t * lo) (t * hi) ≤ t * x ∧ t * x ≤ Max.max (t * lo) (t * hi) := by
  rcases le_total 0 t with h | h
  · exact ⟨le_trans (min_le_left _ _) (mul_le_mul_of_nonneg_left h1 h), le_trans (mul_le_mul_of_nonneg_left h2 h) (le_max_right _ _)⟩
  · exact ⟨le_trans (min_le_right _ _) (mul_le_mul_of_nonpos_left h2 h), le_trans (mul_le_mul_of_nonpos_left h1 h) (le_max_left _ _)⟩

theorem pick_min {lo hi : ℝ} (h : lo ≤ hi) (t : ℝ) : ∃ x, lo ≤ x ∧ x ≤ hi ∧ t * x = Min.min (t * lo) (t * hi) := by
  rcases min_choice (t * lo) (t * hi) with e | e
  · exact ⟨lo, le_rfl, h, e.symm⟩
  · exact ⟨hi, h, le_rfl, e.symm⟩

theorem pick_max {lo hi : ℝ} (h : lo ≤ hi) (t : ℝ) : ∃ x, lo ≤ x ∧ x ≤ hi ∧ t * x = Max.max (t * lo) (t * hi) := by
  rcases max_choice (t * lo) (t * hi) with e | e
  · exact ⟨lo, le_rfl, h, e.symm⟩
  · exact ⟨hi, h, le_rfl, e.symm⟩

theorem sign_exists (a : ℝ) : ∃ s : ℝ, |s| ≤ 1 ∧ a * s = |a| := by
  rcases abs_cases a with ⟨h, -⟩ | ⟨h, -⟩
  · exact ⟨1, by simp, by rw [h]; ring⟩
  · exact ⟨-1, by simp, by rw [h]; ring⟩

/-- The values a linear functional takes on a box. -/
theorem box_values {c e : Point} (he : ∀ i, 0 ≤ e i) (a : Point) (v : ℝ) :
    (∃ x ∈ box c e, a 0 * x 0 + a 1 * x 1 + a 2 * x 2 = v) ↔
      |v - (a 0 * c 0 + a 1 * c 1 + a 2 * c 2)| ≤ e 0 * |a 0| + e 1 * |a 1| + e 2 * |a 2| := by
  constructor
  · rintro ⟨x, hx, rfl⟩
    have k : ∀ i, |a i * (x i - c i)| ≤ e i * |a i| := fun i => by
      rw [abs_mul, mul_comm]; exact mul_le_mul_of_nonneg_right (hx i) (abs_nonneg _)
    have : a 0 * x 0 + a 1 * x 1 + a 2 * x 2 - (a 0 * c 0 + a 1 * c 1 + a 2 * c 2) =
      a 0 * (x 0 - c 0) + a 1 * (x 1 - c 1) + a 2 * (x 2 - c 2) := by ring
    rw [this]
    exact le_trans (abs_add_three _ _ _) (by linarith [k 0, k 1, k 2])
  · intro h
    choose s hs1 hs2 using fun i => sign_exists (a i)
    have hS : 0 ≤ e 0 * |a 0| + e 1 * |a 1| + e 2 * |a 2| := le_trans (abs_nonneg _) h
    generalize hv : v - (a 0 * c 0 + a 1 * c 1 + a 2 * c 2) = w at h
    have mem : ∀ t : ℝ, |t| ≤ 1 → (fun i => c i + t * (e i * s i) : Point) ∈ box c e := by
      intro t ht i
      simp only [add_sub_cancel_left, abs_mul, abs_of_nonneg (he i)]
      have := hs1 i
      have := he i
      have := abs_nonneg t
      have := abs_nonneg (s i)
      calc |t| * (e i * |s i|) ≤ 1 * (e i * 1) := by gcongr
        _ = e i := by ring
    rcases eq_or_lt_of_le hS with h0 | h0
    · refine ⟨c, fun i => by simpa using he i, ?_⟩
      rw [← h0] at h
      have : w = 0 := abs_eq_zero.mp (le_antisymm h (abs_nonneg _))
      linarith
    · refine ⟨_, mem (w / (e 0 * |a 0| + e 1 * |a 1| + e 2 * |a 2|)) ?_, ?_⟩
      · rw [abs_div, abs_of_pos h0, div_le_one h0]; exact h
      · generalize hk : w / (e 0 * |a 0| + e 1 * |a 1| + e 2 * |a 2|) = t
        have hw : t * (e 0 * |a 0| + e 1 * |a 1| + e 2 * |a 2|) = w := by rw [← hk]; field_simp
        have h0 := hs2 0
        have h1 := hs2 1
        have h2 := hs2 2
        rw [← h0, ← h1, ← h2] at hw
        linear_combination hw - hv

/-! ### one slab and one parameter -/

/-- `{t | |m + t d| ≤ e}` meets `[-1, 1]` when `|m| ≤ e + |d|`. -/
theorem slab_unit {m d e : ℝ} (he : 0 ≤ e) (h : |m| ≤ e + |d|) : ∃ t : ℝ, -1 ≤ t ∧ t ≤ 1 ∧ |m + t * d| ≤ e := by
  by_cases hmd : |m| ≤ |d|
  · by_cases hd : d = 0
    · refine ⟨0, by norm_num, by norm_num, ?_⟩
      rw [hd, abs_zero] at hmd
      have : m = 0 := abs_eq_zero.mp (le_antisymm hmd (abs_nonneg m))
      simp [this, he]
    · refine ⟨-m / d, ?_, ?_, ?_⟩
      · have : |(-m) / d| ≤ 1 := by rw [abs_div, abs_neg, div_le_one (abs_pos.mpr hd)]; exact hmd
        exact (abs_le.mp this).1
      · have : |(-m) / d| ≤ 1 := by rw [abs_div, abs_neg, div_le_one (abs_pos.mpr hd)]; exact hmd
        exact (abs_le.mp this).2
      · have : m + -m / d * d = 0 := by field_simp; ring
        rw [this, abs_zero]; exact he
  · push Not at hmd
    rcases abs_cases m with ⟨h1, h2⟩ | ⟨h1, h2⟩ <;> rcases abs_cases d with ⟨h3, h4⟩ | ⟨h3, h4⟩
    · exact ⟨-1, by norm_num, by norm_num, by rw [abs_le]; constructor <;> linarith⟩
    · exact ⟨1, by norm_num, by norm_num, by rw [abs_le]; constructor <;> linarith⟩
    · exact ⟨1, by norm_num, by norm_num, by rw [abs_le]; constructor <;> linarith⟩
    · exact ⟨-1, by norm_num, by norm_num, by rw [abs_le]; constructor <;> linarith⟩

/-- The solutions of `|m + t d| ≤ e` for `d ≠ 0` are an interval around `-m / d`. -/
theorem slab_interval {m d e t : ℝ} (hd : d ≠ 0) : |m + t * d| ≤ e ↔ |t - -m / d| ≤ e / |d| := by
  rw [le_div_iff₀ (abs_pos.mpr hd), ← abs_mul]
  have : (t - -m / d) * d = m + t * d := by field_simp; ring
  rw [this]

theorem intervals_meet {c1 c2 r1 r2 : ℝ} (h1 : 0 ≤ r1) (h2 : 0 ≤ r2) (h : |c1 - c2| ≤ r1 + r2) :
    ∃ t, |t - c1| ≤ r1 ∧ |t - c2| ≤ r2 := by
  rw [abs_le] at h
  refine ⟨Max.max (c1 - r1) (c2 - r2), ?_, ?_⟩ <;> rw [abs_le] <;> constructor
  · linarith [le_max_left (c1 - r1) (c2 - r2)]
  · have : Max.max (c1 - r1) (c2 - r2) ≤ c1 + r1 := max_le (by linarith) (by linarith)
    linarith
  · linarith [le_max_right (c1 - r1) (c2 - r2)]
  · have : Max.max (c1 - r1) (c2 - r2) ≤ c2 + r2 := max_le (by linarith) (by linarith)
    linarith

/-- Two slabs meet when their separating-axis test passes. -/
theorem slab_slab {m1 d1 e1 m2 d2 e2 : ℝ} (he1 : 0 ≤ e1) (he2 : 0 ≤ e2) (h1 : |m1| ≤ e1 + |d1|) (h2 : |m2| ≤ e2 + |d2|)
    (h : |d1 * m2 - d2 * m1| ≤ e1 * |d2| + e2 * |d1|) : ∃ t : ℝ, |m1 + t * d1| ≤ e1 ∧ |m2 + t * d2| ≤ e2 := by
  by_cases hd1 : d1 = 0
  · obtain ⟨t, -, -, ht⟩ := slab_unit he2 h2
    refine ⟨t, ?_, ht⟩
    subst hd1; simpa using h1
  by_cases hd2 : d2 = 0
  · obtain ⟨t, -, -, ht⟩ := slab_unit he1 h1
    refine ⟨t, ht, ?_⟩
    subst hd2; simpa using h2
  have p1 := abs_pos.mpr hd1
  have p2 := abs_pos.mpr hd2
  obtain ⟨t, ht1, ht2⟩ := intervals_meet (c1 := -m1 / d1) (c2 := -m2 / d2) (r1 := e1 / |d1|) (r2 := e2 / |d2|)
    (by positivity) (by positivity) (by
      have e : -m1 / d1 - -m2 / d2 = (d1 * m2 - d2 * m1) / (d1 * d2) := by field_simp; ring
      rw [e, abs_div, abs_mul, div_le_iff₀ (by positivity)]
      calc _ ≤ _ := h
        _ = _ := by field_simp)
  exact ⟨t, (slab_interval hd1).mpr ht1, (slab_interval hd2).mpr ht2⟩

/-- Points where `|m + t d| ≤ e` form a convex set. -/
theorem slab_convex (m d e : ℝ) : Convex ℝ {t : ℝ | |m + t * d| ≤ e} := by
  intro x hx y hy a b ha hb hab
  have hx : |m + x * d| ≤ e := hx
  have hy : |m + y * d| ≤ e := hy
  show |m + (a • x + b • y) * d| ≤ e
  rw [abs_le] at *
  simp only [smul_eq_mul]
  have : a = 1 - b := by linarith
  subst this
  constructor <;> nlinarith

/-- Three slabs and `[-1, 1]` have a common parameter when they meet in pairs (Helly's theorem on the line). -/
theorem slabs_helly (m d e : Fin 3 → ℝ) (he : ∀ i, 0 ≤ e i) (h1 : ∀ i, |m i| ≤ e i + |d i|)
    (h2 : ∀ i j, |d i * m j - d j * m i| ≤ e i * |d j| + e j * |d i|) :
    ∃ t : ℝ, -1 ≤ t ∧ t ≤ 1 ∧ ∀ i, |m i + t * d i| ≤ e i := by
  let F : Option (Fin 3) → Set ℝ := fun o => o.elim (Set.Icc (-1) 1) fun i => {t | |m i + t * d i| ≤ e i}
  have hF : (⋂ i ∈ (Finset.univ : Finset (Option (Fin 3))), F i).Nonempty := by
    refine Convex.helly_theorem' (𝕜 := ℝ) ?_ ?_
    · rintro (_ | i) -
      · exact convex_Icc _ _
      · exact slab_convex _ _ _
    · intro I _ hI
      have hpair : ∀ o1 o2, ∃ t, t ∈ F o1 ∧ t ∈ F o2 := by
        rintro (_ | i) (_ | j)
        · exact ⟨0, ⟨by norm_num, by norm_num⟩, ⟨by norm_num, by norm_num⟩⟩
        · obtain ⟨t, ht1, ht2, ht⟩ := slab_unit (he j) (h1 j)
          exact ⟨t, ⟨ht1, ht2⟩, ht⟩
        · obtain ⟨t, ht1, ht2, ht⟩ := slab_unit (he i) (h1 i)
          exact ⟨t, ht, ⟨ht1, ht2⟩⟩
        · obtain ⟨t, ht1, ht2⟩ := slab_slab (he i) (he j) (h1 i) (h1 j) (h2 i j)
          exact ⟨t, ht1, ht2⟩
      have hc : I.card ≤ 2 := by simpa using hI
      have : ∃ o1 o2, I ⊆ {o1, o2} := by
        rcases Nat.lt_or_ge I.card 2 with h | h
        · rcases Nat.lt_or_ge I.card 1 with h' | h'
          · have h0 : I = ∅ := Finset.card_eq_zero.mp (by omega)
            exact ⟨none, none, by rw [h0]; simp⟩
          · obtain ⟨a, rfl⟩ := Finset.card_eq_one.mp (by omega : I.card = 1)
            exact ⟨a, a, by simp⟩
        · obtain ⟨a, b, -, rfl⟩ := Finset.card_eq_two.mp (by omega : I.card = 2)
          exact ⟨a, b, le_rfl⟩
      obtain ⟨o1, o2, hI'⟩ := this
      obtain ⟨t, ht1, ht2⟩ := hpair o1 o2
      refine ⟨t, ?_⟩
      simp only [Set.mem_iInter]
      intro o ho
      have := hI' ho
      simp at this
      rcases this with rfl | rfl
      · exact ht1
      · exact ht2
  obtain ⟨t, ht⟩ := hF
  simp only [Set.mem_iInter] at ht
  have h0 : t ∈ Set.Icc (-1 : ℝ) 1 := ht none (by simp)
  exact ⟨t, h0.1, h0.2, fun i => ht (some i) (by simp)⟩

end Verif.Proofs.Boxes
