import Verif.Model.FloatBox
import Verif.Spec.Region
import Verif.Proofs.Approx

/-! # Lemmas about bounding boxes of floating-point numbers -/

namespace Verif.Proofs.FloatBox

open Verif.Spec.IeeeArith Verif.Spec.FloatFormat Verif.Spec.Region Verif.Model.FloatVector Verif.Model.FloatBox Verif.Proofs.FloatVector
  Verif.Proofs.Kahan Verif.Proofs.Approx

theorem rd_le {f : Format} (hp : 1 ≤ f.p) {a b : ℚ} (h : a ≤ b) : rd f a ≤ rd f b := by
  rcases le_or_gt 0 a with h0 | h0
  · exact rd_mono hp h0 h
  · rcases le_or_gt 0 b with h1 | h1
    · have := rd_nonneg hp (f := f) (a := -a) (by linarith)
      rw [rd_neg] at this
      exact le_trans (by linarith) (rd_nonneg hp h1)
    · have := rd_mono hp (f := f) (a := -b) (b := -a) (by linarith) (by linarith)
      rw [rd_neg, rd_neg] at this
      linarith

theorem rd_abs (f : Format) (z : ℚ) (hp : 1 ≤ f.p) : |rd f z| = rd f |z| := by
  rcases le_total 0 z with h | h
  · rw [abs_of_nonneg h, abs_of_nonneg (rd_nonneg hp h)]
  · rw [abs_of_nonpos h, rd_neg, abs_of_nonpos]
    have := rd_nonneg hp (f := f) (a := -z) (by linarith)
    rw [rd_neg] at this
    linarith

/-- What the number `z` is rounded to. -/
def Out (f : Format) (z : ℚ) (r : Number) : Prop :=
  (|rd f z| ≤ f.greatest ∧ value r = some (rd f z)) ∨ (f.greatest < rd f z ∧ r = .inf false) ∨ (rd f z < -f.greatest ∧ r = .inf true)

theorem out {f : Format} (hp : 1 ≤ f.p) (_ : 0 ≤ f.greatest) {x : Number} {z : ℚ} (h : value x = some z) (hx : ∀ s a, x = .fin s a → 0 ≤ a) :
    Out f z (f.round x) := by
  rcases le_or_gt |rd f z| f.greatest with hle | hlt
  · exact .inl ⟨hle, value_round f h hle⟩
  · right
    cases x with
    | nan => simp [value] at h
    | inf s => simp [value] at h
    | fin s a =>
      have ha := hx s a rfl
      simp only [value, Option.some.injEq] at h
      subst h
      have h2 : f.greatest < Spec.SmallFloat.rounded f.p f.emin a := by
        rw [rd_abs f _ hp] at hlt
        have : |signed s a| = a := by cases s <;> simp [signed, abs_of_nonneg ha]
        rw [this] at hlt
        exact hlt
      have e : f.round (.fin s a) = .inf s := by simp only [Format.round, Number.round, if_pos h2]
      rw [e]
      cases s
      · exact .inl ⟨h2, rfl⟩
      · refine .inr ⟨?_, rfl⟩
        show rd f (signed true a) < _
        simp only [signed, if_true]
        rw [rd_neg]
        have : f.greatest < rd f a := h2
        linarith

theorem add_mag {x y : Number} {t : Bool} {m : ℚ} (h : x.add y = .fin t m) : 0 ≤ m := by
  cases x <;> cases y <;> simp only [Number.add, reduceCtorEq] at h
  · split_ifs at h
  · split_ifs at h <;> simp only [Number.fin.injEq] at h <;> rw [← h.2]
    exact abs_nonneg _

theorem out_add {f : Format} (hp : 1 ≤ f.p) (hg : 0 ≤ f.greatest) {x y : Number} {X Y : ℚ} (hx : value x = some X) (hy : value y = some Y) :
    Out f (X + Y) (Op.add.eval f x y) := out hp hg (value_add hx hy) (fun _ _ h => add_mag h)

theorem value_negate {y : Number} {Y : ℚ} (hy : value y = some Y) : value y.negate = some (-Y) := by
  cases y with
  | nan => simp [value] at hy
  | inf s => simp [value] at hy
  | fin s a =>
    simp only [value, Option.some.injEq] at hy
    subst hy
    cases s <;> simp [Number.negate, value, signed]

theorem atLeast_values {x y : Number} {X Y : ℚ} (hx : value x = some X) (hy : value y = some Y) : Model.Kahan.atLeast x y = true ↔ Y ≤ X := by
  cases x <;> cases y <;> simp only [value, reduceCtorEq, Option.some.injEq] at hx hy
  subst hx hy
  simp [Model.Kahan.atLeast, Model.Kahan.less]

/-- Rounding keeps the order. -/
theorem out_le {f : Format} (hp : 1 ≤ f.p) (hg : 0 ≤ f.greatest) {z w : ℚ} {r s : Number} (hr : Out f z r) (hs : Out f w s) (h : z ≤ w) :
    Model.Kahan.atLeast s r = true := by
  have hm := rd_le hp h
  rcases hr with ⟨h1, h2⟩ | ⟨h1, rfl⟩ | ⟨h1, rfl⟩ <;> rcases hs with ⟨h3, h4⟩ | ⟨h3, rfl⟩ | ⟨h3, rfl⟩
  · exact (atLeast_values h4 h2).2 hm
  · cases r <;> simp_all [value, Model.Kahan.atLeast, Model.Kahan.less]
  · have := (abs_le.1 h1).1; linarith
  · have := (abs_le.1 h3).2; linarith
  · rfl
  · linarith
  · cases s <;> simp_all [value, Model.Kahan.atLeast, Model.Kahan.less]
  · rfl
  · rfl

theorem out_finite {f : Format} {z Z : ℚ} {r : Number} (hr : Out f z r) (h : value r = some Z) : Z = rd f z := by
  rcases hr with ⟨-, h2⟩ | ⟨-, rfl⟩ | ⟨-, rfl⟩
  · rw [h] at h2; exact Option.some.inj h2
  · simp [value] at h
  · simp [value] at h

set_option linter.unusedSimpArgs false in
theorem atLeast_trans {a b c : Number} (h1 : Model.Kahan.atLeast a b = true) (h2 : Model.Kahan.atLeast b c = true) : Model.Kahan.atLeast a c = true := by
  cases a <;> cases b <;> cases c <;> simp_all [Model.Kahan.atLeast, Model.Kahan.less]
  · rcases h1 with h1 | h1 <;> rcases h2 with h2 | h2 <;> simp_all
  · linarith

theorem mult_neg {f : Format} {z : ℚ} (h : Mult f z) : Mult f (-z) := by
  obtain ⟨n, hn⟩ := h
  exact ⟨-n, by rw [hn]; push_cast; ring⟩

theorem greatest_nonneg {f : Format} {x : Number} {X : ℚ} (hx : f.Has x) (hX : value x = some X) : 0 ≤ f.greatest :=
  (abs_nonneg X).trans (has_R hx hX).2

/-- The test of one axis in contains(point). -/
theorem axis_complete {f : Format} (hp : 1 ≤ f.p) {p c e : Number} {P C E : ℚ} (hP : value p = some P) (hC : value c = some C) (hE : value e = some E)
    (he : f.Has e) (h : |P - C| ≤ E) : atMost (Model.Kahan.abs (Op.sub.eval f p c)) e = true := by
  obtain ⟨h1, h2⟩ := has_R he hE
  have h3 : |rd f (P - C)| ≤ E := by
    rw [rd_abs f _ hp, ← rd_R hp h1]
    exact rd_le hp h
  have h4 := value_round f (value_sub hP hC) (h3.trans ((le_abs_self E).trans h2))
  have h5 : value (Model.Kahan.abs (Op.sub.eval f p c)) = some |rd f (P - C)| := by
    show value (Model.Kahan.abs (f.round (p.sub c))) = _
    have hm : ∀ t m, f.round (p.sub c) = .fin t m → 0 ≤ m := by
      intro t m hh
      cases hs : p.sub c with
      | nan => rw [hs] at hh; simp [Format.round, Number.round] at hh
      | inf s => rw [hs] at hh; simp [Format.round, Number.round] at hh
      | fin s a =>
        rw [hs] at hh
        simp only [Format.round, Number.round] at hh
        split_ifs at hh
        simp only [Number.fin.injEq] at hh
        rw [← hh.2]
        exact rd_nonneg hp (sub_mag hs)
    cases hr : f.round (p.sub c) with
    | nan => rw [hr] at h4; simp [value] at h4
    | inf s => rw [hr] at h4; simp [value] at h4
    | fin t m =>
      rw [hr] at h4
      simp only [value, Option.some.injEq] at h4
      rw [← h4]
      have := hm t m hr
      cases t <;> simp [Model.Kahan.abs, value, signed, abs_of_nonneg this]
  exact (atLeast_values hE h5).2 h3

theorem axis_sound {f : Format} (hp : 1 ≤ f.p) {p c e : Number} {P C E : ℚ} (hP : value p = some P) (hC : value c = some C) (hE : value e = some E)
    (hp' : f.Has p) (hc : f.Has c) (h : atMost (Model.Kahan.abs (Op.sub.eval f p c)) e = true) : |P - C| * (1 - f.u) ≤ E := by
  have hg := greatest_nonneg hp' hP
  have hm : Mult f (P - C) := by
    rw [sub_eq_add_neg]
    exact mult_add f (has_mult f hp' hP) (mult_neg (has_mult f hc hC))
  have he := err_mult f hm
  have ho := out hp hg (value_sub hP hC) (fun _ _ h => sub_mag h)
  rcases ho with ⟨-, h2⟩ | ⟨-, h2⟩ | ⟨-, h2⟩
  · have h3 : |rd f (P - C)| ≤ E := by
      show _
      unfold atMost at h
      change value (Op.sub.eval f p c) = _ at h2
      cases hr : Op.sub.eval f p c with
      | nan => rw [hr] at h2; simp [value] at h2
      | inf s => rw [hr] at h2; simp [value] at h2
      | fin t m =>
        rw [hr] at h2 h
        simp only [value, Option.some.injEq] at h2
        have := (atLeast_values hE (y := Model.Kahan.abs (.fin t m)) (Y := m) rfl).1 h
        rw [← h2]
        have hm : 0 ≤ m := by
          have hh : f.round (p.sub c) = .fin t m := hr
          cases hs : p.sub c with
          | nan => rw [hs] at hh; simp [Format.round, Number.round] at hh
          | inf s => rw [hs] at hh; simp [Format.round, Number.round] at hh
          | fin s a =>
            rw [hs] at hh
            simp only [Format.round, Number.round] at hh
            split_ifs at hh
            simp only [Number.fin.injEq] at hh
            rw [← hh.2]
            exact rd_nonneg hp (sub_mag hs)
        cases t <;> simpa [signed, abs_of_nonneg hm] using this
    have h4 := abs_sub_abs_le_abs_sub (P - C) (rd f (P - C))
    rw [abs_sub_comm (P - C) (rd f (P - C))] at h4
    linarith
  · change Op.sub.eval f p c = _ at h2
    rw [h2] at h
    cases e <;> simp_all [atMost, Model.Kahan.abs, Model.Kahan.atLeast, Model.Kahan.less, value]
  · change Op.sub.eval f p c = _ at h2
    rw [h2] at h
    cases e <;> simp_all [atMost, Model.Kahan.abs, Model.Kahan.atLeast, Model.Kahan.less, value]

/-- The corners of a box. -/
theorem out_max {f : Format} (hp : 1 ≤ f.p) (hg : 0 ≤ f.greatest) {b : Box} {C E : Fin 3 → ℚ} (hC : Values b.center C) (hE : Values b.extents E) (i : Fin 3) :
    Out f (C i + E i) (maxCorner f b i) := out_add hp hg (hC i) (hE i)

theorem out_min {f : Format} (hp : 1 ≤ f.p) (hg : 0 ≤ f.greatest) {b : Box} {C E : Fin 3 → ℚ} (hC : Values b.center C) (hE : Values b.extents E) (i : Fin 3) :
    Out f (C i - E i) (minCorner f b i) := by
  rw [sub_eq_add_neg]
  exact out_add hp hg (hC i) (value_negate (hE i))

theorem err_has {f : Format} {x y : Number} {X Y : ℚ} (hx : f.Has x) (hy : f.Has y) (hX : value x = some X) (hY : value y = some Y) :
    |rd f (X + Y) - (X + Y)| ≤ f.u * |X + Y| ∧ |rd f (X - Y) - (X - Y)| ≤ f.u * |X - Y| := by
  have h1 := has_mult f hx hX
  have h2 := has_mult f hy hY
  refine ⟨err_mult f (mult_add f h1 h2), ?_⟩
  rw [sub_eq_add_neg X Y]
  exact err_mult f (mult_add f h1 (mult_neg h2))

theorem corner_err {f : Format} {x y : Number} {X Y : ℚ} (hx : f.Has x) (hy : f.Has y) (hX : value x = some X) (hY : value y = some Y) (h0 : 0 ≤ Y) :
    |rd f (X + Y) - (X + Y)| ≤ f.u * (|X| + Y) ∧ |rd f (X - Y) - (X - Y)| ≤ f.u * (|X| + Y) := by
  obtain ⟨h1, h2⟩ := err_has hx hy hX hY
  have hu := (u_pos f).le
  constructor
  · refine h1.trans (mul_le_mul_of_nonneg_left ?_ hu)
    have := abs_add_le X Y
    rwa [abs_of_nonneg h0] at this
  · refine h2.trans (mul_le_mul_of_nonneg_left ?_ hu)
    have := abs_sub X Y
    rwa [abs_of_nonneg h0] at this

/-- The tests of both relations between boxes, axis by axis. -/
theorem intersects_iff (f : Format) (a b : Box) : intersects f a b = true ↔
    ∀ i, Model.Kahan.atLeast (maxCorner f a i) (minCorner f b i) = true ∧ Model.Kahan.atLeast (maxCorner f b i) (minCorner f a i) = true := by
  simp only [intersects, atMost, Bool.and_eq_true, Fin.forall_fin_succ, Fin.isValue, Fin.succ_zero_eq_one, Fin.succ_one_eq_two, IsEmpty.forall_iff, and_true]
  tauto

theorem containsBox_iff (f : Format) (a b : Box) : containsBox f a b = true ↔
    ∀ i, Model.Kahan.atLeast (minCorner f b i) (minCorner f a i) = true ∧ Model.Kahan.atLeast (maxCorner f a i) (maxCorner f b i) = true := by
  simp only [containsBox, atMost, Bool.and_eq_true, Fin.forall_fin_succ, Fin.isValue, Fin.succ_zero_eq_one, Fin.succ_one_eq_two, IsEmpty.forall_iff, and_true]
  tauto

theorem containsPoint_iff (f : Format) (b : Box) (p : Vec) : containsPoint f b p = true ↔
    ∀ i, atMost (Model.Kahan.abs (Op.sub.eval f (p i) (b.center i))) (b.extents i) = true := by
  simp only [containsPoint, Bool.and_eq_true, Fin.forall_fin_succ, Fin.isValue, Fin.succ_zero_eq_one, Fin.succ_one_eq_two, IsEmpty.forall_iff, and_true]
  tauto

/-- Half a number of the format. -/
theorem err_small (f : Format) {z : ℚ} (h : |z| < 2 ^ f.emin) : |rd f z - z| ≤ f.tiny := by
  unfold rd Spec.SmallFloat.rounded
  rw [if_pos h]
  set w : ℚ := 2 ^ (f.emin - f.p + 1) with hw
  have wp : 0 < w := by positivity
  have e : f.tiny = 1 / 2 * w := by
    rw [hw, zpow_add_one₀ (by norm_num), Format.tiny]; ring
  have e2 : (Spec.Float.roundEven (z / w) : ℚ) * w - z = ((Spec.Float.roundEven (z / w) : ℚ) - z / w) * w := by field_simp
  rw [e, e2, abs_mul, abs_of_pos wp]
  exact mul_le_mul_of_nonneg_right (Float.roundEven_near _) wp.le

theorem err_half {f : Format} (hp : 1 ≤ f.p) {S : ℚ} (h : R f S) : |rd f (S * (1 / 2)) - S * (1 / 2)| ≤ f.tiny := by
  rcases lt_or_ge |S * (1 / 2)| (2 ^ f.emin) with hs | hs
  · exact err_small f hs
  · suffices e : rd f (S * (1 / 2)) = S * (1 / 2) by rw [e, sub_self, abs_zero]; exact (tiny_pos f).le
    obtain ⟨m, k, hm, hk, rfl⟩ := h
    rcases lt_or_ge (f.emin - f.p + 1) k with hk2 | hk2
    · have := rd_exact f hp m (k - 1) hm (by omega)
      rw [zpow_sub_one₀ (by norm_num)] at this
      rw [mul_assoc]
      simpa using this
    · obtain rfl : k = f.emin - f.p + 1 := by omega
      have h2 : (2 : ℚ) ^ f.p ≤ |(m : ℚ)| := by
        rw [abs_mul, abs_mul, abs_of_pos (show (0 : ℚ) < 2 ^ (f.emin - f.p + 1) by positivity), abs_of_pos (show (0 : ℚ) < 1 / 2 by norm_num)] at hs
        have e : (2 : ℚ) ^ f.emin = 2 ^ f.p * 2 ^ (f.emin - f.p + 1) * (1 / 2) := by
          rw [← zpow_natCast, ← zpow_add₀ (by norm_num), show (f.p : ℤ) + (f.emin - f.p + 1) = f.emin + 1 by ring, zpow_add_one₀ (by norm_num)]
          ring
        rw [e] at hs
        have wp : (0 : ℚ) < 2 ^ (f.emin - f.p + 1) := by positivity
        have := (mul_le_mul_iff_left₀ (show (0 : ℚ) < 1 / 2 by norm_num)).1 hs
        exact (mul_le_mul_iff_left₀ wp).1 this
      have h3 : |m| = 2 ^ f.p := by
        have : ((2 ^ f.p : ℤ) : ℚ) ≤ ((|m| : ℤ) : ℚ) := by push_cast; exact h2
        exact le_antisymm hm (by exact_mod_cast this)
      obtain ⟨q, hq⟩ : ∃ q, f.p = q + 1 := ⟨f.p - 1, by omega⟩
      have h4 : ∃ n : ℤ, m = n * 2 ∧ |n| ≤ 2 ^ f.p := by
        rcases abs_eq (show (0 : ℤ) ≤ 2 ^ f.p by positivity) |>.1 h3 with e | e
        · refine ⟨2 ^ q, by rw [e, hq, pow_succ], ?_⟩
          rw [abs_of_pos (by positivity), hq]
          exact pow_le_pow_right₀ (by norm_num) (by omega)
        · refine ⟨-2 ^ q, by rw [e, hq, pow_succ]; ring, ?_⟩
          rw [abs_neg, abs_of_pos (by positivity), hq]
          exact pow_le_pow_right₀ (by norm_num) (by omega)
      obtain ⟨n, rfl, hn⟩ := h4
      have := rd_exact f hp n (f.emin - f.p + 1) hn (by omega)
      have e : ((n * 2 : ℤ) : ℚ) * 2 ^ (f.emin - f.p + 1) * (1 / 2) = n * 2 ^ (f.emin - f.p + 1) := by push_cast; ring
      rw [e, this]

theorem half_sum {f : Format} (hp : 1 ≤ f.p) (hg : 0 ≤ f.greatest) {x y : Number} {X Y Z : ℚ} (hx : value x = some X) (hy : value y = some Y)
    (hm : |rd f (X + Y) - (X + Y)| ≤ f.u * |X + Y|) (hz : value (Op.mul.eval f (Op.add.eval f x y) half) = some Z) :
    |Z - (X + Y) / 2| ≤ f.u * |X + Y| / 2 + f.tiny := by
  rcases out_add hp hg hx hy with ⟨h1, h2⟩ | ⟨-, h2⟩ | ⟨-, h2⟩
  · have hr : R f (rd f (X + Y)) := by
      have h3 : f.Has (Op.add.eval f x y) := round_is hp (fun s a h => add_mag h)
      exact (has_R h3 h2).1
    have h4 : value ((Op.add.eval f x y).mul half) = some (rd f (X + Y) * (1 / 2)) := value_mul h2 (by simp [half, value, signed])
    have hh := err_half hp hr
    have hZ : Z = rd f (rd f (X + Y) * (1 / 2)) := by
      rcases le_or_gt |rd f (rd f (X + Y) * (1 / 2))| f.greatest with hle | hlt
      · have := value_round f h4 hle
        change value (Op.mul.eval f (Op.add.eval f x y) half) = _ at this
        rw [hz] at this
        exact Option.some.inj this
      · exfalso
        have hm2 : ∀ s a, (Op.add.eval f x y).mul half = .fin s a → 0 ≤ a := by
          intro s a hh
          cases hq : Op.add.eval f x y with
          | nan => rw [hq] at h2; simp [value] at h2
          | inf t => rw [hq] at h2; simp [value] at h2
          | fin t b =>
            rw [hq] at hh
            simp only [half, Number.mul, Number.fin.injEq] at hh
            have hb : 0 ≤ b := by
              have h3 : f.Has (Op.add.eval f x y) := round_is hp (fun s a h => add_mag h)
              rw [hq] at h3
              obtain ⟨⟨m, k, -, -, rfl⟩, -⟩ := h3
              positivity
            rw [← hh.2]; positivity
        have := out hp hg h4 hm2
        have h5 := out_finite this hz
        rcases this with ⟨h6, -⟩ | ⟨-, h6⟩ | ⟨-, h6⟩
        · linarith
        · change Op.mul.eval f (Op.add.eval f x y) half = _ at h6; rw [h6] at hz; simp [value] at hz
        · change Op.mul.eval f (Op.add.eval f x y) half = _ at h6; rw [h6] at hz; simp [value] at hz
    rw [hZ]
    have h7 := abs_add_le (rd f (rd f (X + Y) * (1 / 2)) - rd f (X + Y) * (1 / 2)) ((rd f (X + Y) - (X + Y)) * (1 / 2))
    rw [abs_mul, abs_of_pos (show (0 : ℚ) < 1 / 2 by norm_num)] at h7
    rw [show rd f (rd f (X + Y) * (1 / 2)) - (X + Y) / 2 = rd f (rd f (X + Y) * (1 / 2)) - rd f (X + Y) * (1 / 2) + (rd f (X + Y) - (X + Y)) * (1 / 2) by ring]
    linarith
  · rw [h2] at hz; simp [half, Op.eval, Number.mul, Format.round, Number.round, value] at hz
  · rw [h2] at hz; simp [half, Op.eval, Number.mul, Format.round, Number.round, value] at hz

/-- Both means of a pair. -/
theorem means {m M P : ℚ} (h1 : m ≤ P) (h2 : P ≤ M) (u t C E : ℚ) (hC : |C - (m + M) / 2| ≤ u * |m + M| / 2 + t) (hE : |E - (M - m) / 2| ≤ u * |M - m| / 2 + t)
    : C - (E + (u * max |m| |M| + 2 * t)) ≤ P ∧ P ≤ C + (E + (u * max |m| |M| + 2 * t)) := by
  have h3 : |m + M| + |M - m| = 2 * max |m| |M| := by
    rcases le_total 0 (m + M) with h | h
    · rw [abs_of_nonneg h, abs_of_nonneg (by linarith), max_eq_right]
      · rw [abs_of_nonneg (by linarith)]; ring
      · rw [abs_le, abs_of_nonneg (by linarith)]; constructor <;> linarith
    · rw [abs_of_nonpos h, abs_of_nonneg (by linarith), max_eq_left]
      · rw [abs_of_nonpos (show m ≤ 0 by linarith)]; ring
      · rw [abs_le, abs_of_nonpos (show m ≤ 0 by linarith)]; constructor <;> linarith
  have h4 : u * |m + M| / 2 + u * |M - m| / 2 = u * max |m| |M| := by
    rw [← add_div, ← mul_add, h3]; ring
  rw [abs_le] at hC hE
  constructor <;> linarith

/-- The least and the greatest of some points. -/
theorem less_values {x y : Number} {X Y : ℚ} (hx : value x = some X) (hy : value y = some Y) : Model.Kahan.less x y = true ↔ X < Y := by
  cases x <;> cases y <;> simp only [value, reduceCtorEq, Option.some.injEq] at hx hy
  subst hx hy
  simp [Model.Kahan.less]

theorem min2_value {x y : Number} {X Y : ℚ} (hx : value x = some X) (hy : value y = some Y) : value (Model.CoreUtils.min2 Model.Kahan.less x y) = some (min X Y) := by
  unfold Model.CoreUtils.min2
  split_ifs with h
  · rw [less_values hx hy] at h
    rw [hx, min_eq_left h.le]
  · rw [less_values hx hy, not_lt] at h
    rw [hy, min_eq_right h]

theorem max2_value {x y : Number} {X Y : ℚ} (hx : value x = some X) (hy : value y = some Y) : value (Model.CoreUtils.max2 Model.Kahan.less x y) = some (max X Y) := by
  unfold Model.CoreUtils.max2
  split_ifs with h
  · rw [less_values hx hy] at h
    rw [hy, max_eq_right h.le]
  · rw [less_values hx hy, not_lt] at h
    rw [hx, max_eq_left h]

theorem min2_or {x y : Number} : Model.CoreUtils.min2 Model.Kahan.less x y = x ∨ Model.CoreUtils.min2 Model.Kahan.less x y = y := by
  unfold Model.CoreUtils.min2; split_ifs <;> simp

theorem max2_or {x y : Number} : Model.CoreUtils.max2 Model.Kahan.less x y = x ∨ Model.CoreUtils.max2 Model.Kahan.less x y = y := by
  unfold Model.CoreUtils.max2; split_ifs <;> simp

theorem minMany_spec (i : Fin 3) : ∀ (ps : List Vec) (p0 p1 : Vec) (_ : ∀ p ∈ p0 :: p1 :: ps, ∃ X, value (p i) = some X),
    (∃ p ∈ p0 :: p1 :: ps, minMany p0 p1 ps i = p i) ∧ ∃ M, value (minMany p0 p1 ps i) = some M ∧ ∀ p ∈ p0 :: p1 :: ps, ∀ X, value (p i) = some X → M ≤ X
  | [], p0, p1, h => by
    obtain ⟨X, hX⟩ := h p0 (by simp)
    obtain ⟨Y, hY⟩ := h p1 (by simp)
    refine ⟨?_, min X Y, min2_value hX hY, ?_⟩
    · rcases min2_or (x := p0 i) (y := p1 i) with e | e
      · exact ⟨p0, by simp, e⟩
      · exact ⟨p1, by simp, e⟩
    · intro p hp Z hZ
      simp only [List.mem_cons, List.not_mem_nil, or_false] at hp
      rcases hp with rfl | rfl
      · rw [hX] at hZ; cases hZ; exact min_le_left ..
      · rw [hY] at hZ; cases hZ; exact min_le_right ..
  | p :: ps, p0, p1, h => by
    obtain ⟨⟨q, hq, e⟩, M, hM, hle⟩ := minMany_spec i ps p1 p (fun q hq => h q (List.mem_cons_of_mem _ hq))
    obtain ⟨X, hX⟩ := h p0 (by simp)
    refine ⟨?_, min X M, min2_value hX hM, ?_⟩
    · rcases min2_or (x := p0 i) (y := minMany p1 p ps i) with e2 | e2
      · exact ⟨p0, by simp, e2⟩
      · exact ⟨q, List.mem_cons_of_mem _ hq, e2.trans e⟩
    · intro r hr Z hZ
      rcases List.mem_cons.1 hr with rfl | hr
      · rw [hX] at hZ; cases hZ; exact min_le_left ..
      · exact (min_le_right ..).trans (hle r hr Z hZ)

theorem maxMany_spec (i : Fin 3) : ∀ (ps : List Vec) (p0 p1 : Vec) (_ : ∀ p ∈ p0 :: p1 :: ps, ∃ X, value (p i) = some X),
    (∃ p ∈ p0 :: p1 :: ps, maxMany p0 p1 ps i = p i) ∧ ∃ M, value (maxMany p0 p1 ps i) = some M ∧ ∀ p ∈ p0 :: p1 :: ps, ∀ X, value (p i) = some X → X ≤ M
  | [], p0, p1, h => by
    obtain ⟨X, hX⟩ := h p0 (by simp)
    obtain ⟨Y, hY⟩ := h p1 (by simp)
    refine ⟨?_, max X Y, max2_value hX hY, ?_⟩
    · rcases max2_or (x := p0 i) (y := p1 i) with e | e
      · exact ⟨p0, by simp, e⟩
      · exact ⟨p1, by simp, e⟩
    · intro p hp Z hZ
      simp only [List.mem_cons, List.not_mem_nil, or_false] at hp
      rcases hp with rfl | rfl
      · rw [hX] at hZ; cases hZ; exact le_max_left ..
      · rw [hY] at hZ; cases hZ; exact le_max_right ..
  | p :: ps, p0, p1, h => by
    obtain ⟨⟨q, hq, e⟩, M, hM, hle⟩ := maxMany_spec i ps p1 p (fun q hq => h q (List.mem_cons_of_mem _ hq))
    obtain ⟨X, hX⟩ := h p0 (by simp)
    refine ⟨?_, max X M, max2_value hX hM, ?_⟩
    · rcases max2_or (x := p0 i) (y := maxMany p1 p ps i) with e2 | e2
      · exact ⟨p0, by simp, e2⟩
      · exact ⟨q, List.mem_cons_of_mem _ hq, e2.trans e⟩
    · intro r hr Z hZ
      rcases List.mem_cons.1 hr with rfl | hr
      · rw [hX] at hZ; cases hZ; exact le_max_left ..
      · exact (hle r hr Z hZ).trans (le_max_right ..)

end Verif.Proofs.FloatBox
