import Verif.Spec.RayRounding
import Verif.Model.FloatRay
import Verif.Proofs.FloatPlane
import Verif.Proofs.FloatBox
import Mathlib.Data.EReal.Basic
import Mathlib.Tactic.FieldSimp
/-! # Lemmas for C183 -/
namespace Verif.Proofs.FloatRay
open Verif.Spec.IeeeArith Verif.Spec.FloatFormat Verif.Spec.RayRounding Verif.Spec.PlaneRounding
open Verif.Model.VectorStore Verif.Model.FloatVector Verif.Model.FloatRay
open Verif.Proofs.FloatVector Verif.Proofs.FloatProducts Verif.Proofs.FloatError

theorem Near.quotient {f : Format} {k : ℕ} {M T : ℚ} {x y : Number} {X Y : ℚ} (h : Near f k M T x X) (hy : value y = some Y) (h0 : Y ≠ 0) :
    Near f k (M / |Y|) (T / |Y|) (x.div y) (X / Y) := by
  obtain ⟨z, h1, h2, h3, h4⟩ := h
  have hp := abs_pos.2 h0
  refine ⟨z / Y, value_div h1 hy h0, by rw [abs_div]; gcongr, by positivity, ?_⟩
  rw [← sub_div, abs_div, div_le_iff₀ hp]
  refine h4.trans (le_of_eq ?_)
  field_simp

theorem value_of_round {f : Format} {x : Number} {z T : ℚ} (h : value x = some z) (hT : value (f.round x) = some T) : T = rd f z := by
  cases x with
  | nan => simp [value] at h
  | inf s => simp [value] at h
  | fin s a =>
    simp only [value, Option.some.injEq] at h
    subst h
    simp only [Format.round, Number.round] at hT
    split at hT
    · simp [value] at hT
    · simp only [value, Option.some.injEq] at hT
      rw [← hT]
      cases s
      · rfl
      · simp only [signed, if_true]
        exact (Kahan.rd_neg f a).symm

/-- A quotient of numbers of the same sign, rounded, is not negative, nor NaN. -/
theorem quotient_atLeast {f : Format} (hp : 1 ≤ f.p) {x y : Number} {q z : ℚ} (hx : value x = some q) (hy : value y = some z) (mx : ∀ s a, x = .fin s a → 0 ≤ a)
    (my : ∀ s a, y = .fin s a → 0 ≤ a) (h : 0 < q * z) : Model.Kahan.atLeast (Op.div.eval f x y) zero = true := by
  cases x with
  | nan => simp [value] at hx
  | inf s => simp [value] at hx
  | fin s a =>
    cases y with
    | nan => simp [value] at hy
    | inf s => simp [value] at hy
    | fin t b =>
      have a0 := mx s a rfl
      have b0 := my t b rfl
      simp only [value, Option.some.injEq] at hx hy
      subst hx hy
      have hb : b ≠ 0 := by rintro rfl; cases t <;> simp [signed] at h
      have hst : (s != t) = false := by
        have := mul_nonneg a0 b0
        cases s <;> cases t <;> simp [signed] at h ⊢ <;> linarith
      have r0 : 0 ≤ Spec.SmallFloat.rounded f.p f.emin (a / b) := Kahan.rd_nonneg (f := f) hp (div_nonneg a0 b0)
      simp only [Op.eval, Number.div, if_neg hb, hst, Format.round, Number.round]
      split
      · simp [Model.Kahan.atLeast, Model.Kahan.less, zero]
      · simpa [Model.Kahan.atLeast, Model.Kahan.less, zero, signed] using r0

theorem dot_mag {f : Format} (hp : 1 ≤ f.p) {k v w : Store _ 3} {r : Number} (h : dot f k v w = some r) (s : Bool) (a : ℚ) (e : r = .fin s a) : 0 ≤ a := by
  cases k; cases v; cases w
  cases h
  exact FloatSphere.round_mag hp (fun _ _ e => FloatBox.add_mag e) s a e

/-- Where a number is on the extended line; NaN is nowhere, here zero. -/
noncomputable def rank : Number → EReal
  | .nan => 0
  | .inf s => if s then ⊥ else ⊤
  | .fin s a => ((signed s a : ℚ) : ℝ)

theorem rank_value {x : Number} {X : ℚ} (h : value x = some X) : rank x = ((X : ℝ) : EReal) := by
  cases x <;> simp [value] at h
  subst h
  rfl

theorem less_rank {x y : Number} (hx : x ≠ .nan) (hy : y ≠ .nan) : Model.Kahan.less x y = true ↔ rank x < rank y := by
  cases x with
  | nan => exact absurd rfl hx
  | inf s =>
    cases y with
    | nan => exact absurd rfl hy
    | inf t => cases s <;> cases t <;> simp [Model.Kahan.less, rank]
    | fin t b => cases s <;> simp [Model.Kahan.less, rank, EReal.bot_lt_coe, EReal.coe_lt_top, (EReal.coe_lt_top _).le]
  | fin s a =>
    cases y with
    | nan => exact absurd rfl hy
    | inf t => cases t <;> simp [Model.Kahan.less, rank, EReal.bot_lt_coe, EReal.coe_lt_top, (EReal.bot_lt_coe _).le]
    | fin t b => simp [Model.Kahan.less, rank]

theorem min2_rank {x y : Number} (hx : x ≠ .nan) (hy : y ≠ .nan) :
    Model.CoreUtils.min2 Model.Kahan.less x y ≠ .nan ∧ rank (Model.CoreUtils.min2 Model.Kahan.less x y) = min (rank x) (rank y) := by
  unfold Model.CoreUtils.min2
  split
  · rename_i h; rw [less_rank hx hy] at h; exact ⟨hx, (min_eq_left h.le).symm⟩
  · rename_i h; rw [less_rank hx hy, not_lt] at h; exact ⟨hy, (min_eq_right h).symm⟩

theorem max2_rank {x y : Number} (hx : x ≠ .nan) (hy : y ≠ .nan) :
    Model.CoreUtils.max2 Model.Kahan.less x y ≠ .nan ∧ rank (Model.CoreUtils.max2 Model.Kahan.less x y) = max (rank x) (rank y) := by
  unfold Model.CoreUtils.max2
  split
  · rename_i h; rw [less_rank hx hy] at h; exact ⟨hy, (max_eq_right h.le).symm⟩
  · rename_i h; rw [less_rank hx hy, not_lt] at h; exact ⟨hx, (max_eq_left h).symm⟩

/-- A number between two finite ones is finite. -/
theorem finite_of_rank {x : Number} (hx : x ≠ .nan) {A B : ℚ} (h1 : ((A : ℝ) : EReal) ≤ rank x) (h2 : rank x ≤ ((B : ℝ) : EReal)) : ∃ X, value x = some X := by
  cases x with
  | nan => exact absurd rfl hx
  | inf s =>
    cases s
    · simp [rank] at h2
    · simp [rank] at h1
  | fin s a => exact ⟨_, rfl⟩

theorem zero_rank : rank zero = 0 := by simp [rank, zero, signed]

/-- `hits_aabb_min_max` without NaN, on the extended line: the latest entry and the earliest exit. -/
theorem hits_rank {f : Format} {o d lo hi : Model.FloatBox.Vec} {t1 t2 : Fin 3 → Number} (e1 : ∀ i, Op.div.eval f (Op.sub.eval f (lo i) (o i)) (d i) = t1 i)
    (e2 : ∀ i, Op.div.eval f (Op.sub.eval f (hi i) (o i)) (d i) = t2 i) (n1 : ∀ i, t1 i ≠ .nan) (n2 : ∀ i, t2 i ≠ .nan) :
    ∃ tmin tmax : Number, tmin ≠ .nan ∧ tmax ≠ .nan ∧ rank tmin = max (max (min (rank (t1 0)) (rank (t2 0))) (min (rank (t1 1)) (rank (t2 1)))) (min (rank (t1 2)) (rank (t2 2))) ∧
      rank tmax = min (min (max (rank (t1 0)) (rank (t2 0))) (max (rank (t1 1)) (rank (t2 1)))) (max (rank (t1 2)) (rank (t2 2))) ∧
      (hitsMinMax f o d lo hi = none ↔ rank tmax < 0 ∨ rank tmax < rank tmin) ∧
      ∀ t, hitsMinMax f o d lo hi = some t → (rank tmin < 0 ∧ t = tmax) ∨ (0 ≤ rank tmin ∧ t = tmin) := by
  have a := fun i => min2_rank (n1 i) (n2 i)
  have b := fun i => max2_rank (n1 i) (n2 i)
  have A := max2_rank (a 0).1 (a 1).1
  have A' := max2_rank A.1 (a 2).1
  have B := min2_rank (b 0).1 (b 1).1
  have B' := min2_rank B.1 (b 2).1
  refine ⟨_, _, A'.1, B'.1, ?_, ?_, ?_, ?_⟩
  · rw [A'.2, A.2, (a 0).2, (a 1).2, (a 2).2]
  · rw [B'.2, B.2, (b 0).2, (b 1).2, (b 2).2]
  all_goals
    have hz : zero ≠ .nan := by simp [zero]
    unfold hitsMinMax
    simp only [Model.CoreUtils.maxN, Model.CoreUtils.minN, e1, e2]
    generalize Model.CoreUtils.max2 Model.Kahan.less (Model.CoreUtils.max2 Model.Kahan.less _ _) _ = tmin at A' ⊢
    generalize Model.CoreUtils.min2 Model.Kahan.less (Model.CoreUtils.min2 Model.Kahan.less _ _) _ = tmax at B' ⊢
    have l1 := less_rank B'.1 hz
    have l2 := less_rank B'.1 A'.1
    have l3 := less_rank A'.1 hz
    rw [zero_rank] at l1 l3
  · rw [← l1, ← l2, ← Bool.or_eq_true]
    split
    · rename_i h; exact ⟨fun _ => h, fun _ => rfl⟩
    · rename_i h; exact ⟨fun g => (by cases g), fun g => absurd g h⟩
  · intro t ht
    split at ht
    · cases ht
    · simp only [Option.some.injEq] at ht
      split at ht
      · exact .inl ⟨l3.1 ‹_›, ht.symm⟩
      · rename_i h
        rw [l3, not_lt] at h
        exact .inr ⟨h, ht.symm⟩

theorem between_mul {T1 T2 S V : ℚ} (h1 : min T1 T2 ≤ S) (h2 : S ≤ max T1 T2) : min (T1 * V) (T2 * V) ≤ S * V ∧ S * V ≤ max (T1 * V) (T2 * V) := by
  rcases le_total T1 T2 with h | h
  · rw [min_eq_left h] at h1
    rw [max_eq_right h] at h2
    rcases le_total 0 V with v | v
    · exact ⟨(min_le_left _ _).trans (mul_le_mul_of_nonneg_right h1 v), (mul_le_mul_of_nonneg_right h2 v).trans (le_max_right _ _)⟩
    · exact ⟨(min_le_right _ _).trans (mul_le_mul_of_nonpos_right h2 v), (mul_le_mul_of_nonpos_right h1 v).trans (le_max_left _ _)⟩
  · rw [min_eq_right h] at h1
    rw [max_eq_left h] at h2
    rcases le_total 0 V with v | v
    · exact ⟨(min_le_right _ _).trans (mul_le_mul_of_nonneg_right h1 v), (mul_le_mul_of_nonneg_right h2 v).trans (le_max_left _ _)⟩
    · exact ⟨(min_le_left _ _).trans (mul_le_mul_of_nonpos_right h2 v), (mul_le_mul_of_nonpos_right h1 v).trans (le_max_right _ _)⟩

/-- The distance to a face, before the division. -/
theorem face_near {f : Format} {c o : Number} {C E P X : ℚ} (hX : Near f 0 (|C| + |E|) 0 c X) (ho : value o = some P)
    (hg : (1 + f.u) ^ 2 * (|C| + |E| + |P| + 2 * f.tiny) ≤ f.greatest) : Near f 2 (|C| + |E| + |P|) (2 * f.tiny) (Op.sub.eval f (f.round c) o) (X - P) := by
  have ht := tiny_pos f
  have c0 := abs_nonneg C
  have e0 := abs_nonneg E
  have p0 := abs_nonneg P
  have r := hX.round (grow (l := 2) (by norm_num) (by linarith) (by linarith) hg)
  have q := (r.sub ((Near.exact f ho).mono (k' := 1) (by norm_num) le_rfl le_rfl)).round (grow (l := 2) (by norm_num) (by linarith) (by linarith) hg)
  exact q.mono le_rfl le_rfl (by linarith)

/-- The sign of a quotient by zero. -/
theorem quotient_zero {f : Format} {v : Number} (hv : value v = some 0) :
    ∃ b : Bool, ∀ {y : Number} {Y : ℚ}, value y = some Y → (∀ s a, y = .fin s a → 0 ≤ a) → Y ≠ 0 → Op.div.eval f y v = .inf (decide (Y < 0) != b) := by
  cases v with
  | nan => simp [value] at hv
  | inf s => simp [value] at hv
  | fin t z =>
    have hz : z = 0 := by
      simp only [value, Option.some.injEq] at hv
      cases t <;> simpa [signed] using hv
    subst hz
    refine ⟨t, fun {y Y} hy hm hY => ?_⟩
    cases y with
    | nan => simp [value] at hy
    | inf s => simp [value] at hy
    | fin s a =>
      have h0 := hm s a rfl
      simp only [value, Option.some.injEq] at hy
      subst hy
      have ha : a ≠ 0 := by rintro rfl; exact hY (by cases s <;> simp [signed])
      have hpos := lt_of_le_of_ne h0 (Ne.symm ha)
      cases s
      · have : ¬ signed false a < 0 := by simpa [signed] using h0
        simp [Op.eval, Number.div, ha, this, Format.round, Number.round]
      · have : signed true a < 0 := by simpa [signed] using hpos
        simp [Op.eval, Number.div, ha, this, Format.round, Number.round]

theorem coe_min' (a b : ℝ) : ((min a b : ℝ) : EReal) = min (a : EReal) b := EReal.coe_strictMono.monotone.map_min

theorem coe_max' (a b : ℝ) : ((max a b : ℝ) : EReal) = max (a : EReal) b := EReal.coe_strictMono.monotone.map_max

theorem le_of_mul_le_mul_of_neg_right' {a b c : ℚ} (h : b * c ≤ a * c) (hc : c < 0) : a ≤ b := by nlinarith

theorem lt_of_mul_lt_mul_of_neg_right' {a b c : ℚ} (h : b * c < a * c) (hc : c < 0) : a < b := by nlinarith

theorem axis {f : Format} (hp : 1 ≤ f.p) {c e o v : Number} {C E P V : Fin 3 → ℚ} {i : Fin 3} (hc : value c = some (C i)) (he : value e = some (E i)) (ho : value o = some (P i))
    (hv : value v = some (V i)) (hE : 0 ≤ E i) (hr : FaceInRange f C E P V i)
    (hz : V i = 0 → faceSlack f C E P V i < |P i - (C i - E i)| ∧ faceSlack f C E P V i < |P i - (C i + E i)|) :
    ∃ t1 t2 : Number, Op.div.eval f (Op.sub.eval f (Op.sub.eval f c e) o) v = t1 ∧ Op.div.eval f (Op.sub.eval f (Op.add.eval f c e) o) v = t2 ∧ t1 ≠ .nan ∧ t2 ≠ .nan ∧
      (∀ S : ℚ, min (rank t1) (rank t2) ≤ ((S : ℝ) : EReal) → ((S : ℝ) : EReal) ≤ max (rank t1) (rank t2) → |P i + S * V i - C i| ≤ E i + faceSlack f C E P V i) ∧
      (∀ S : ℚ, |P i + S * V i - C i| ≤ E i - faceSlack f C E P V i → min (rank t1) (rank t2) ≤ ((S : ℝ) : EReal) ∧ ((S : ℝ) : EReal) ≤ max (rank t1) (rank t2)) ∧
      (∀ S : ℚ, |P i + S * V i - C i| < E i - faceSlack f C E P V i → min (rank t1) (rank t2) < ((S : ℝ) : EReal) ∧ ((S : ℝ) : EReal) < max (rank t1) (rank t2)) ∧
      (V i ≠ 0 → ∃ A B : ℚ, min (rank t1) (rank t2) = ((A : ℝ) : EReal) ∧ max (rank t1) (rank t2) = ((B : ℝ) : EReal)) := by
  have ht := tiny_pos f
  have hu := u_pos f
  have c0 := abs_nonneg (C i)
  have e0 := abs_nonneg (E i)
  have p0 := abs_nonneg (P i)
  have n1 : Near f 2 (|C i| + |E i| + |P i|) (2 * f.tiny) (Op.sub.eval f (Op.sub.eval f c e) o) (C i - E i - P i) :=
    face_near (by simpa using (Near.exact f hc).sub (Near.exact f he)) ho hr.1
  have n2 : Near f 2 (|C i| + |E i| + |P i|) (2 * f.tiny) (Op.sub.eval f (Op.add.eval f c e) o) (C i + E i - P i) :=
    face_near (by simpa using (Near.exact f hc).add (Near.exact f he)) ho hr.1
  have m1 : ∀ s a, Op.sub.eval f (Op.sub.eval f c e) o = .fin s a → 0 ≤ a := fun s a h => Proofs.FloatSphere.round_mag hp (fun _ _ e => Proofs.FloatBox.add_mag e) s a h
  have m2 : ∀ s a, Op.sub.eval f (Op.add.eval f c e) o = .fin s a → 0 ≤ a := fun s a h => Proofs.FloatSphere.round_mag hp (fun _ _ e => Proofs.FloatBox.add_mag e) s a h
  generalize Op.sub.eval f (Op.sub.eval f c e) o = x1 at n1 m1 ⊢
  generalize Op.sub.eval f (Op.add.eval f c e) o = x2 at n2 m2 ⊢
  refine ⟨_, _, rfl, rfl, ?_⟩
  by_cases h0 : V i = 0
  · rw [h0] at hv
    obtain ⟨b, hb⟩ := quotient_zero (f := f) hv
    obtain ⟨g1, g2⟩ := hz h0
    have hs : ∀ {x : Number} {X : ℚ}, Near f 2 (|C i| + |E i| + |P i|) (2 * f.tiny) x X → ∃ z, value x = some z ∧ |z - X| ≤ faceSlack f C E P V i := by
      intro x X hx
      obtain ⟨z, q1, -, -, q2⟩ := hx.mono (k' := 3) (by norm_num) le_rfl le_rfl
      refine ⟨z, q1, q2.trans ?_⟩
      unfold faceSlack
      rw [h0, abs_zero, zero_mul, add_zero]
    obtain ⟨X1, v1, w1⟩ := hs n1
    obtain ⟨X2, v2, w2⟩ := hs n2
    have w1' := abs_le.1 w1
    have w2' := abs_le.1 w2
    have s0 : 0 ≤ faceSlack f C E P V i := (abs_nonneg _).trans w1
    generalize faceSlack f C E P V i = s at *
    have z1 : X1 ≠ 0 := by
      rintro rfl
      have : |P i - (C i - E i)| ≤ s := by rw [abs_le]; constructor <;> linarith
      linarith
    have z2 : X2 ≠ 0 := by
      rintro rfl
      have : |P i - (C i + E i)| ≤ s := by rw [abs_le]; constructor <;> linarith
      linarith
    have d1 : X1 < 0 ↔ C i - E i < P i := by
      rcases lt_or_ge (C i - E i) (P i) with h | h
      · rw [abs_of_pos (by linarith)] at g1
        exact ⟨fun _ => h, fun _ => by linarith⟩
      · rw [abs_of_nonpos (by linarith)] at g1
        exact ⟨fun _ => by linarith, fun _ => by linarith⟩
    have d2 : X2 < 0 ↔ C i + E i < P i := by
      rcases lt_or_ge (C i + E i) (P i) with h | h
      · rw [abs_of_pos (by linarith)] at g2
        exact ⟨fun _ => h, fun _ => by linarith⟩
      · rw [abs_of_nonpos (by linarith)] at g2
        exact ⟨fun _ => by linarith, fun _ => by linarith⟩
    rw [hb v1 m1 z1, hb v2 m2 z2]
    have inside : ∀ S : ℚ, |P i + S * V i - C i| ≤ E i - s → X1 < 0 ∧ ¬ X2 < 0 := by
      intro S hS
      rw [h0, mul_zero, add_zero] at hS
      have := abs_le.1 hS
      rw [d1, d2]
      refine ⟨lt_of_le_of_ne (by linarith) ?_, by linarith⟩
      intro h
      rw [← h, sub_self, abs_zero] at g1
      linarith
    refine ⟨by simp, by simp, ?_, ?_, ?_, fun h => absurd h0 h⟩
    · intro S a1 a2
      rw [h0, mul_zero, add_zero]
      have : X1 < 0 ∧ ¬ X2 < 0 := by
        by_cases y1 : X1 < 0 <;> by_cases y2 : X2 < 0 <;> cases b <;> simp [y1, y2, rank] at a1 a2 ⊢
        all_goals
          rw [d2] at y2
          rw [d1] at y1
          linarith
      rw [d1, d2] at this
      rw [abs_le]
      constructor <;> linarith
    · intro S hS
      obtain ⟨y1, y2⟩ := inside S hS
      cases b <;> simp [y1, y2, rank]
    · intro S hS
      obtain ⟨y1, y2⟩ := inside S hS.le
      cases b <;> simp [y1, y2, rank, EReal.bot_lt_coe, EReal.coe_lt_top]
  · have hV := abs_pos.2 h0
    have hq : ∀ {x : Number} {X : ℚ}, Near f 2 (|C i| + |E i| + |P i|) (2 * f.tiny) x X →
        ∃ T, value (Op.div.eval f x v) = some T ∧ |T * V i - X| ≤ faceSlack f C E P V i := by
      intro x X hx
      obtain ⟨T, q1, -, -, q2⟩ := (Near.quotient hx hv h0).round (hr.2 h0)
      refine ⟨T, q1, ?_⟩
      have e : T * V i - X = (T - X / V i) * V i := by field_simp
      rw [e, abs_mul]
      refine (mul_le_mul_of_nonneg_right q2 hV.le).trans (le_of_eq ?_)
      unfold faceSlack
      field_simp
    obtain ⟨T1, v1, w1⟩ := hq n1
    obtain ⟨T2, v2, w2⟩ := hq n2
    have w1' := abs_le.1 w1
    have w2' := abs_le.1 w2
    have s0 : 0 ≤ faceSlack f C E P V i := (abs_nonneg _).trans w1
    generalize faceSlack f C E P V i = s at *
    have nn : ∀ {x : Number} {X : ℚ}, value x = some X → x ≠ .nan := fun h e => by rw [e] at h; simp [value] at h
    rw [rank_value v1, rank_value v2]
    refine ⟨nn v1, nn v2, ?_, ?_, ?_, fun _ => ⟨min T1 T2, max T1 T2, by rw [Rat.cast_min, coe_min'], by rw [Rat.cast_max, coe_max']⟩⟩
    · intro S a1 a2
      rw [← coe_min', ← Rat.cast_min, EReal.coe_le_coe_iff, Rat.cast_le] at a1
      rw [← coe_max', ← Rat.cast_max, EReal.coe_le_coe_iff, Rat.cast_le] at a2
      obtain ⟨b1, b2⟩ := between_mul (V := V i) a1 a2
      rw [abs_le]
      constructor
      · rcases min_le_iff.1 b1 with h | h <;> linarith
      · rcases le_max_iff.1 b2 with h | h <;> linarith
    · intro S hS
      have := abs_le.1 hS
      rw [← coe_min', ← Rat.cast_min, EReal.coe_le_coe_iff, Rat.cast_le, ← coe_max', ← Rat.cast_max, EReal.coe_le_coe_iff, Rat.cast_le]
      rcases lt_or_gt_of_ne h0 with h | h
      · exact ⟨min_le_of_right_le (le_of_mul_le_mul_of_neg_right' (by linarith) h), le_max_of_le_left (le_of_mul_le_mul_of_neg_right' (by linarith) h)⟩
      · exact ⟨min_le_of_left_le (le_of_mul_le_mul_right (by linarith) h), le_max_of_le_right (le_of_mul_le_mul_right (by linarith) h)⟩
    · intro S hS
      have := abs_lt.1 hS
      rw [← coe_min', ← Rat.cast_min, EReal.coe_lt_coe_iff, Rat.cast_lt, ← coe_max', ← Rat.cast_max, EReal.coe_lt_coe_iff, Rat.cast_lt]
      rcases lt_or_gt_of_ne h0 with h | h
      · exact ⟨min_lt_iff.2 (.inr (lt_of_mul_lt_mul_of_neg_right' (by linarith) h)), lt_max_iff.2 (.inl (lt_of_mul_lt_mul_of_neg_right' (by linarith) h))⟩
      · exact ⟨min_lt_iff.2 (.inl (lt_of_mul_lt_mul_right (by linarith) h.le)), lt_max_iff.2 (.inr (lt_of_mul_lt_mul_right (by linarith) h.le))⟩

end Verif.Proofs.FloatRay
