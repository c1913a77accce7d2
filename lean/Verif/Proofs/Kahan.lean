import Verif.Spec.LeastGreatest
import Verif.Model.Kahan
import Verif.Proofs.FloatVector
import Verif.Proofs.HalfEmulated

/-! # Lemmas about compensated sums -/

namespace Verif.Proofs.Kahan

open Verif.Spec.Float Verif.Spec.SmallFloat Verif.Spec.IeeeArith Verif.Spec.FloatFormat Verif.Model.FloatVector Verif.Model.Kahan
  Verif.Proofs.Float Verif.Proofs.FloatVector Verif.Proofs.HalfArith

/-- A number with `p` bits. -/
def R (f : Format) (x : ℚ) : Prop := ∃ m k : ℤ, |m| ≤ 2 ^ f.p ∧ f.emin - f.p + 1 ≤ k ∧ x = m * 2 ^ k

theorem R_neg {f : Format} {x : ℚ} (h : R f x) : R f (-x) := by
  obtain ⟨m, k, h1, h2, rfl⟩ := h
  exact ⟨-m, k, by rwa [abs_neg], h2, by push_cast; ring⟩

theorem R_zero (f : Format) : R f 0 := ⟨0, f.emin - f.p + 1, by simp, le_rfl, by simp⟩

theorem rd_R {f : Format} (hp : 1 ≤ f.p) {x : ℚ} (h : R f x) : rd f x = x := by
  obtain ⟨m, k, h1, h2, rfl⟩ := h
  exact rd_exact f hp m k h1 h2

theorem rd_neg (f : Format) (x : ℚ) : rd f (-x) = -rd f x := round_neg _ _ _

theorem rd_zero {f : Format} (hp : 1 ≤ f.p) : rd f 0 = 0 := rd_R hp (R_zero f)

theorem place_neg (p : ℕ) (e : ℤ) (z : ℚ) : place p e (-z) = place p e z := by unfold place; rw [abs_neg]

theorem rd_eq {f : Format} (hp : 1 ≤ f.p) (z : ℚ) : rd f z = roundEven (z / 2 ^ place f.p f.emin z) * 2 ^ place f.p f.emin z := by
  have pos : ∀ z : ℚ, 0 < z → rd f z = roundEven (z / 2 ^ place f.p f.emin z) * 2 ^ place f.p f.emin z := fun z h =>
    round_again f.p 1 hp le_rfl f.emin z h z (Or.inl rfl)
  rcases lt_trichotomy z 0 with h | h | h
  · have := pos (-z) (by linarith)
    rw [rd_neg, place_neg, neg_div, roundEven_neg] at this
    push_cast at this
    linarith
  · subst h
    have : roundEven 0 = 0 := by have := roundEven_int 0; simpa using this
    rw [rd_zero hp, zero_div, this]; simp
  · exact pos z h

theorem le_place (f : Format) (z : ℚ) : f.emin - f.p + 1 ≤ place f.p f.emin z := by
  unfold place
  have := le_max_right (Int.log 2 |z|) f.emin
  omega

theorem abs_roundEven_le {q : ℚ} {n : ℤ} (h : |q| ≤ n) : |roundEven q| ≤ n := by
  rw [abs_le] at h ⊢
  exact ⟨le_roundEven (by push_cast; exact h.1), roundEven_le h.2⟩

theorem R_rd {f : Format} (hp : 1 ≤ f.p) (z : ℚ) : R f (rd f z) := by
  by_cases h0 : z = 0
  · rw [h0, rd_zero hp]; exact R_zero f
  refine ⟨_, _, ?_, le_place f z, rd_eq hp z⟩
  have h := lt_place f.p f.emin z h0
  apply abs_roundEven_le
  rw [abs_div, abs_of_pos (two_zpow_pos _), div_le_iff₀ (two_zpow_pos _)]
  push_cast
  rw [← zpow_natCast, ← zpow_add₀ (by norm_num), add_comm]
  exact h.le

/-- The canonical form. -/
theorem canonical {f : Format} (hp : 1 ≤ f.p) {x : ℚ} (h : R f x) (h0 : x ≠ 0) :
    ∃ m : ℤ, |m| < 2 ^ f.p ∧ x = m * 2 ^ place f.p f.emin x := by
  have e := rd_eq hp x
  rw [rd_R hp h] at e
  refine ⟨_, ?_, e⟩
  set w := place f.p f.emin x with hw
  set n := roundEven (x / 2 ^ w)
  have h := lt_place f.p f.emin x h0
  rw [← hw, e, abs_mul, abs_of_pos (two_zpow_pos _), add_comm, zpow_add₀ (by norm_num)] at h
  have := lt_of_mul_lt_mul_right h (two_zpow_pos _).le
  rw [zpow_natCast] at this
  exact_mod_cast this

theorem roundEven_nearest (q : ℚ) (n : ℤ) : |(roundEven q : ℚ) - q| ≤ |n - q| := by
  by_contra hlt
  rw [not_le] at hlt
  have h1 := roundEven_near q
  have h2 : |(n : ℚ) - roundEven q| < 1 := by
    have := abs_add_le ((n : ℚ) - q) (q - roundEven q)
    rw [sub_add_sub_cancel, abs_sub_comm q] at this
    linarith
  have h3 : n = roundEven q := by
    have : |n - roundEven q| < 1 := by exact_mod_cast h2
    rw [Int.abs_lt_one_iff] at this
    omega
  rw [h3] at hlt
  exact lt_irrefl _ hlt

theorem nearest_mult {f : Format} (hp : 1 ≤ f.p) (z : ℚ) (n : ℤ) : |rd f z - z| ≤ |n * 2 ^ place f.p f.emin z - z| := by
  set w := place f.p f.emin z with hw
  have wp := two_zpow_pos w
  have e : ∀ m : ℚ, m * 2 ^ w - z = (m - z / 2 ^ w) * 2 ^ w := fun m => by field_simp
  rw [rd_eq hp z, ← hw, e, e, abs_mul, abs_mul]
  exact mul_le_mul_of_nonneg_right (roundEven_nearest _ _) (abs_nonneg _)

/-- No number of the format is nearer than the rounded one. -/
theorem nearest {f : Format} (hp : 1 ≤ f.p) (z : ℚ) {r : ℚ} (hr : R f r) : |rd f z - z| ≤ |r - z| := by
  by_cases hz : z = 0
  · rw [hz, rd_zero hp, sub_zero, abs_zero]; exact abs_nonneg _
  by_cases h0 : r = 0
  · have := nearest_mult hp z 0
    simpa [h0] using this
  obtain ⟨m, hm, e⟩ := canonical hp hr h0
  rcases le_or_gt (place f.p f.emin z) (place f.p f.emin r) with h | h
  · obtain ⟨d, hd⟩ := zpow_diff _ _ h
    have := nearest_mult hp z (m * 2 ^ d)
    rw [e, hd]
    push_cast at this ⊢
    rwa [← mul_assoc]
  · have h1 := le_place f r
    have hL : place f.p f.emin z = Int.log 2 |z| - f.p + 1 := by
      unfold place at h ⊢
      rcases le_total (Int.log 2 |z|) f.emin with h2 | h2
      · rw [max_eq_right h2] at h
        have := le_max_right (Int.log 2 |r|) f.emin
        omega
      · rw [max_eq_left h2]
    have h2 : |r| ≤ 2 ^ Int.log 2 |z| :=
      (lt_place f.p f.emin r h0).le.trans (zpow_le_zpow_right₀ (by norm_num) (by omega))
    have h3 := (log_bounds hz).1
    obtain ⟨d, hd⟩ := zpow_diff (Int.log 2 |z|) (place f.p f.emin z) (by omega)
    have h4 : |rd f z - z| ≤ |z| - 2 ^ Int.log 2 |z| := by
      rcases lt_or_gt_of_ne hz with hn | hn
      · have := nearest_mult hp z (-2 ^ d)
        push_cast at this hd
        rw [neg_mul, ← hd] at this
        rw [abs_of_neg hn] at h3 ⊢
        rw [abs_of_neg hn] at this
        have e2 : |-2 ^ Int.log 2 (-z) - z| = -z - 2 ^ Int.log 2 (-z) := by rw [abs_of_nonneg (by linarith)]; ring
        rwa [e2] at this
      · have := nearest_mult hp z (2 ^ d)
        push_cast at this hd
        rw [← hd] at this
        rw [abs_of_pos hn] at h3 ⊢
        rw [abs_of_pos hn] at this
        have e2 : |2 ^ Int.log 2 z - z| = z - 2 ^ Int.log 2 z := by rw [abs_sub_comm, abs_of_nonneg (by linarith)]
        rwa [e2] at this
    have h5 : |z| - |r| ≤ |r - z| := by rw [abs_sub_comm]; exact abs_sub_abs_le_abs_sub _ _
    linarith

theorem place_mono (f : Format) {a b : ℚ} (hb : b ≠ 0) (h : |b| ≤ |a|) : place f.p f.emin b ≤ place f.p f.emin a := by
  unfold place
  have := Int.log_mono_right (b := 2) (abs_pos.2 hb) h
  have := max_le_max this (le_refl f.emin)
  omega

/-- The error of an addition is a number of the format, and so is the difference to the greater operand (Dekker). -/
theorem two_sum {f : Format} (hp : 1 ≤ f.p) {a b : ℚ} (ha : R f a) (hb : R f b) (h : |b| ≤ |a|) :
    R f (a - rd f (a + b)) ∧ R f (a + b - rd f (a + b)) := by
  by_cases hb0 : b = 0
  · rw [hb0, add_zero, rd_R hp ha, sub_self]; exact ⟨R_zero f, R_zero f⟩
  have ha0 : a ≠ 0 := by rintro rfl; rw [abs_zero] at h; exact hb0 (abs_nonpos_iff.1 h)
  obtain ⟨A, hA, eA⟩ := canonical hp ha ha0
  obtain ⟨B, hB, eB⟩ := canonical hp hb hb0
  have hij := place_mono f hb0 h
  have hi := le_place f b
  set i := place f.p f.emin b with hid
  set j := place f.p f.emin a with hjd
  have ip := two_zpow_pos i
  obtain ⟨d, hd⟩ := zpow_diff j i hij
  have ez : a + b = (A * 2 ^ d + B : ℤ) * 2 ^ i := by rw [eA, eB, hd]; push_cast; ring
  by_cases hbig : |a + b| ≤ 2 ^ f.p * 2 ^ i
  · have hR : R f (a + b) := by
      refine ⟨A * 2 ^ d + B, i, ?_, hi, ez⟩
      rw [ez, abs_mul, abs_of_pos ip] at hbig
      have := le_of_mul_le_mul_right hbig ip
      exact_mod_cast this
    rw [rd_R hp hR, sub_self, show a - (a + b) = -b by ring]
    exact ⟨R_neg hb, R_zero f⟩
  rw [not_le] at hbig
  have hz0 : a + b ≠ 0 := by
    intro e
    rw [e, abs_zero] at hbig
    have : (0 : ℚ) < 2 ^ f.p * 2 ^ i := by positivity
    linarith
  have hlog : f.p + i ≤ Int.log 2 |a + b| := by
    have := Int.zpow_le_iff_le_log (b := 2) (by norm_num) (r := |a + b|) (x := f.p + i) (abs_pos.2 hz0)
    apply this.1
    push_cast
    rw [zpow_add₀ (by norm_num), zpow_natCast]
    exact hbig.le
  set w := place f.p f.emin (a + b) with hwd
  have hw : i + 1 ≤ w := by
    rw [hwd]; unfold place
    have := le_max_left (Int.log 2 |a + b|) f.emin
    omega
  have et := rd_eq hp (a + b)
  rw [← hwd] at et
  set T := roundEven ((a + b) / 2 ^ w)
  set t := rd f (a + b) with htd
  obtain ⟨c, hc⟩ := zpow_diff w i (by omega)
  have near : |t - (a + b)| ≤ |b| := by
    have := nearest hp (a + b) ha
    rwa [show a - (a + b) = -b by ring, abs_neg] at this
  have hBi : |b| = |(B : ℚ)| * 2 ^ i := by rw [eB, abs_mul, abs_of_pos ip]
  have hBq : |(B : ℚ)| ≤ 2 ^ f.p - 1 := by
    have : |B| ≤ 2 ^ f.p - 1 := by omega
    exact_mod_cast this
  have bd : ∀ {n : ℤ} {e : ℤ}, |(n : ℚ) * 2 ^ e| ≤ 2 ^ f.p * 2 ^ e → |n| ≤ 2 ^ f.p := by
    intro n e hn
    rw [abs_mul, abs_of_pos (two_zpow_pos e)] at hn
    have := le_of_mul_le_mul_right hn (two_zpow_pos e)
    exact_mod_cast this
  constructor
  · rcases hij.lt_or_eq with hlt | heq
    · obtain ⟨d', hd'⟩ := zpow_diff j (i + 1) (by omega)
      obtain ⟨c', hc'⟩ := zpow_diff w (i + 1) hw
      have e : a - t = (A * 2 ^ d' - T * 2 ^ c' : ℤ) * 2 ^ (i + 1) := by rw [et, eA, hd', hc']; push_cast; ring
      refine ⟨_, _, bd (e := i + 1) ?_, by omega, e⟩
      rw [← e]
      have h1 := abs_add_le (-(t - (a + b))) (-b)
      rw [show -(t - (a + b)) + -b = a - t by ring, abs_neg, abs_neg] at h1
      rw [zpow_add_one₀ (by norm_num)]
      nlinarith
    · have hz2 : |a + b| < 2 ^ (f.p + i + 1 : ℤ) := by
        have h1 := abs_add_le a b
        have h2 : |a| = |(A : ℚ)| * 2 ^ j := by rw [eA, abs_mul, abs_of_pos (two_zpow_pos j)]
        have h3 : |(A : ℚ)| ≤ 2 ^ f.p - 1 := by
          have : |A| ≤ 2 ^ f.p - 1 := by omega
          exact_mod_cast this
        rw [← heq] at h2
        rw [zpow_add_one₀ (by norm_num), zpow_add₀ (by norm_num), zpow_natCast]
        nlinarith
      have hlog2 : Int.log 2 |a + b| < f.p + i + 1 := by
        have := Int.lt_zpow_iff_log_lt (b := 2) (by norm_num) (r := |a + b|) (x := f.p + i + 1) (abs_pos.2 hz0)
        exact this.1 (by exact_mod_cast hz2)
      have hw2 : w ≤ i + 1 := by
        rw [hwd]; unfold place
        rcases max_choice (Int.log 2 |a + b|) f.emin with e | e <;> rw [e] <;> omega
      have hw3 : w = i + 1 := by omega
      have half : |t - (a + b)| ≤ 2 ^ i := by
        have h1 := roundEven_near ((a + b) / 2 ^ w)
        have h2 : t - (a + b) = ((T : ℚ) - (a + b) / 2 ^ w) * 2 ^ w := by
          rw [et]; have := (two_zpow_pos w).ne'; field_simp
        have h3 : (2 : ℚ) ^ w = 2 * 2 ^ i := by rw [hw3, zpow_add_one₀ (by norm_num)]; ring
        rw [h2, abs_mul, abs_of_pos (two_zpow_pos w)]
        calc |(T : ℚ) - (a + b) / 2 ^ w| * 2 ^ w ≤ 1 / 2 * 2 ^ w := mul_le_mul_of_nonneg_right h1 (two_zpow_pos w).le
          _ = 2 ^ i := by rw [h3]; ring
      have e : a - t = (A * 2 ^ d - T * 2 ^ c : ℤ) * 2 ^ i := by rw [et, eA, hd, hc]; push_cast; ring
      refine ⟨_, _, bd (e := i) ?_, hi, e⟩
      rw [← e]
      have h1 := abs_add_le (-(t - (a + b))) (-b)
      rw [show -(t - (a + b)) + -b = a - t by ring, abs_neg, abs_neg] at h1
      nlinarith
  · have e : a + b - t = (A * 2 ^ d + B - T * 2 ^ c : ℤ) * 2 ^ i := by rw [et, hc]; nth_rewrite 1 [ez]; push_cast; ring
    refine ⟨_, _, bd (e := i) ?_, hi, e⟩
    rw [← e, abs_sub_comm]
    nlinarith

/-- A finite number of the format. -/
def Fl (f : Format) (x : Number) (X : ℚ) : Prop := ∃ s a, x = .fin s a ∧ 0 ≤ a ∧ signed s a = X ∧ R f X

theorem Fl.value {f : Format} {x : Number} {X : ℚ} (h : Fl f x X) : value x = some X := by
  obtain ⟨s, a, rfl, -, rfl, -⟩ := h; rfl

theorem rd_nonneg {f : Format} (hp : 1 ≤ f.p) {a : ℚ} (h : 0 ≤ a) : 0 ≤ rd f a := by
  rw [rd_eq hp]
  have : (0 : ℤ) ≤ roundEven (a / 2 ^ place f.p f.emin a) := le_roundEven (by push_cast; positivity)
  have h2 : (0 : ℚ) ≤ roundEven (a / 2 ^ place f.p f.emin a) := by exact_mod_cast this
  positivity

theorem fl_round {f : Format} (hp : 1 ≤ f.p) {x : Number} {s : Bool} {a z : ℚ} (hx : x = .fin s a) (ha : 0 ≤ a) (hz : signed s a = z)
    (hg : |rd f z| ≤ f.greatest) : Fl f (f.round x) (rd f z) := by
  have hv := value_round f (x := x) (z := z) (by rw [hx]; simp [Spec.FloatFormat.value, hz]) hg
  subst hx
  cases hr : f.round (.fin s a) with
  | nan => rw [hr] at hv; simp [Spec.FloatFormat.value] at hv
  | inf t => rw [hr] at hv; simp [Spec.FloatFormat.value] at hv
  | fin t b =>
    rw [hr] at hv
    refine ⟨t, b, rfl, ?_, by simpa [Spec.FloatFormat.value] using hv, R_rd hp z⟩
    simp only [Format.round, Number.round] at hr
    split_ifs at hr
    injection hr with _ hb
    rw [← hb]
    exact rd_nonneg hp ha

theorem fl_add {f : Format} (hp : 1 ≤ f.p) {x y : Number} {X Y : ℚ} (hx : Fl f x X) (hy : Fl f y Y) (hg : |rd f (X + Y)| ≤ f.greatest) :
    Fl f (Op.add.eval f x y) (rd f (X + Y)) := by
  obtain ⟨s, a, rfl, ha, eX, -⟩ := hx
  obtain ⟨t, b, rfl, hb, eY, -⟩ := hy
  unfold Op.eval
  simp only [Number.add, eX, eY]
  split_ifs with h
  · exact fl_round hp rfl le_rfl (by rw [h]; simp [signed]) hg
  · exact fl_round hp rfl (abs_nonneg _) (signed_abs _) hg

theorem fl_negate {f : Format} {y : Number} {Y : ℚ} (hy : Fl f y Y) : Fl f y.negate (-Y) := by
  obtain ⟨t, b, rfl, hb, rfl, hR⟩ := hy
  refine ⟨!t, b, rfl, hb, ?_, R_neg hR⟩
  cases t <;> simp [signed]

theorem fl_sub {f : Format} (hp : 1 ≤ f.p) {x y : Number} {X Y : ℚ} (hx : Fl f x X) (hy : Fl f y Y) (hg : |rd f (X - Y)| ≤ f.greatest) :
    Fl f (Op.sub.eval f x y) (rd f (X - Y)) := by
  rw [sub_eq_add_neg] at hg ⊢
  exact fl_add hp hx (fl_negate hy) hg

theorem fl_has {f : Format} {x : Number} {X : ℚ} (h : f.Has x) (hv : value x = some X) : Fl f x X := by
  cases x with
  | nan => simp [Spec.FloatFormat.value] at hv
  | inf s => simp [Spec.FloatFormat.value] at hv
  | fin s a =>
    simp only [Spec.FloatFormat.value, Option.some.injEq] at hv
    obtain ⟨⟨m, k, hm, hk, rfl⟩, -⟩ := h
    have h0 : (0 : ℚ) ≤ (m : ℚ) * 2 ^ k := by positivity
    refine ⟨s, _, rfl, h0, hv, ?_⟩
    have hR : R f ((m : ℚ) * 2 ^ k) := ⟨m, k, by rw [Nat.abs_cast]; exact_mod_cast hm.le, hk, by push_cast; rfl⟩
    subst hv
    cases s
    · exact hR
    · exact R_neg hR

theorem fl_zero (f : Format) : Fl f (.fin false 0) 0 := ⟨false, 0, rfl, le_rfl, by simp [signed], R_zero f⟩

theorem R_mult {f : Format} {x : ℚ} (h : R f x) : Mult f x := by
  obtain ⟨m, k, -, hk, rfl⟩ := h
  obtain ⟨d, hd⟩ := zpow_diff k _ hk
  exact ⟨m * 2 ^ d, by rw [hd]; push_cast; ring⟩

theorem atLeast_abs {f : Format} {x y : Number} {X Y : ℚ} (hx : Fl f x X) (hy : Fl f y Y) :
    atLeast (Model.Kahan.abs x) (Model.Kahan.abs y) = decide (|Y| ≤ |X|) := by
  obtain ⟨s, a, rfl, ha, rfl, -⟩ := hx
  obtain ⟨t, b, rfl, hb, rfl, -⟩ := hy
  have e : ∀ (s : Bool) (a : ℚ), 0 ≤ a → |signed s a| = a := by
    intro s a h; cases s <;> simp [signed, abs_of_nonneg h]
  rw [e s a ha, e t b hb]
  simp [Model.Kahan.abs, atLeast, less, signed, ← decide_not]

/-- One step: the sum is rounded, and what is lost is added to the correction. -/
theorem kahanAdd_fl {f : Format} (hp : 1 ≤ f.p) {s c x : Number} {S C X B : ℚ} (hs : Fl f s S) (hc : Fl f c C) (hx : Fl f x X)
    (h1 : |rd f (S + X)| ≤ B) (h2 : |S| ≤ B) (h2' : |X| ≤ B) (h3 : |S + X - rd f (S + X)| ≤ 2 * B) (hB : 2 * B ≤ f.greatest)
    (h4 : |rd f (C + (S + X - rd f (S + X)))| ≤ f.greatest) :
    ∃ t c', kahanAdd f (s, c) x = (t, c') ∧ Fl f t (rd f (S + X)) ∧ Fl f c' (rd f (C + (S + X - rd f (S + X)))) := by
  have hB0 : 0 ≤ B := (abs_nonneg _).trans h2
  have ft := fl_add hp hs hx (h1.trans (by linarith))
  unfold kahanAdd
  rw [atLeast_abs hs hx]
  by_cases hle : |X| ≤ |S|
  · rw [decide_eq_true hle]
    obtain ⟨r1, r2⟩ := two_sum hp hs.choose_spec.choose_spec.2.2.2 hx.choose_spec.choose_spec.2.2.2 hle
    have d1 := fl_sub hp hs ft (by
      rw [rd_R hp r1]
      have := abs_sub S (rd f (S + X))
      linarith)
    rw [rd_R hp r1] at d1
    have e : S - rd f (S + X) + X = S + X - rd f (S + X) := by ring
    have d2 := fl_add hp d1 hx (by rw [e, rd_R hp r2]; linarith)
    rw [e, rd_R hp r2] at d2
    exact ⟨_, _, rfl, ft, fl_add hp hc d2 h4⟩
  · rw [decide_eq_false hle]
    rw [not_le] at hle
    obtain ⟨r1, r2⟩ := two_sum hp hx.choose_spec.choose_spec.2.2.2 hs.choose_spec.choose_spec.2.2.2 hle.le
    rw [add_comm X S] at r1 r2
    have d1 := fl_sub hp hx ft (by
      rw [rd_R hp r1]
      have := abs_sub X (rd f (S + X))
      linarith)
    rw [rd_R hp r1] at d1
    have e : X - rd f (S + X) + S = S + X - rd f (S + X) := by ring
    have d2 := fl_add hp d1 hs (by rw [e, rd_R hp r2]; linarith)
    rw [e, rd_R hp r2] at d2
    exact ⟨_, _, rfl, ft, fl_add hp hc d2 h4⟩

/-- What holds after `k + 1` samples with sum `S` and sum of magnitudes `P`; `D` is the sum of the magnitudes of what was lost. -/
def Inv (f : Format) (k : ℕ) (sc : Number × Number) (S P : ℚ) : Prop :=
  ∃ A C D, Fl f sc.1 A ∧ Fl f sc.2 C ∧ |S| ≤ P ∧ |S - A| ≤ D ∧ D ≤ ((1 + f.u) ^ k - 1) * P ∧ |C - (S - A)| ≤ ((1 + f.u) ^ k - 1) * D

theorem inv_step {f : Format} (hp : 1 ≤ f.p) {k : ℕ} {sc : Number × Number} {S P X : ℚ} {x : Number} (h : Inv f k sc S P) (hx : Fl f x X)
    (hg : 2 * (1 + f.u) ^ (2 * (k + 1)) * (P + |X|) ≤ f.greatest) : Inv f (k + 1) (kahanAdd f sc x) (S + X) (P + |X|) := by
  obtain ⟨A, C, D, hA, hC, hS, hD, hDP, hCD⟩ := h
  have hu := u_pos f
  have g1 := one_le f k
  have mA := R_mult hA.choose_spec.choose_spec.2.2.2
  have mX := R_mult hx.choose_spec.choose_spec.2.2.2
  have mC := R_mult hC.choose_spec.choose_spec.2.2.2
  set T := rd f (A + X) with hT
  set e := A + X - T with he
  have hX := abs_nonneg X
  have hP : 0 ≤ P := (abs_nonneg S).trans hS
  have hD0 : 0 ≤ D := (abs_nonneg _).trans hD
  have ee : |e| ≤ f.u * |A + X| := by rw [he, abs_sub_comm]; exact err_mult f (mult_add f mA mX)
  have hAX : |A + X| ≤ P + |X| + D := by
    have a1 := abs_add_le (S + X) (-(S - A))
    have a2 := abs_add_le S X
    rw [show S + X + -(S - A) = A + X by ring, abs_neg] at a1
    linarith
  have hA' : |A| ≤ P + D := by
    have a1 := abs_add_le S (-(S - A))
    rw [show S + -(S - A) = A by ring, abs_neg] at a1
    linarith
  have hu1 : f.u * |A + X| ≤ f.u * (P + |X| + D) := mul_le_mul_of_nonneg_left hAX hu.le
  set g := (1 + f.u) ^ k with hgd
  have eg : (1 + f.u) ^ (k + 1) = g * (1 + f.u) := pow_succ _ _
  have gX : 0 ≤ (g - 1) * |X| := mul_nonneg (by linarith) hX
  have hDP' : D ≤ (g - 1) * (P + |X|) := by linarith [mul_add (g - 1) P |X|]
  have hD' : D + |e| ≤ (g * (1 + f.u) - 1) * (P + |X|) := by
    have : (1 + f.u) * D ≤ (1 + f.u) * ((g - 1) * (P + |X|)) := mul_le_mul_of_nonneg_left hDP' (by linarith)
    linarith
  have hE' : |S + X - T| ≤ D + |e| := by
    have := abs_add_le (S - A) e
    rw [show S - A + e = S + X - T by rw [he]; ring] at this
    linarith
  have he' := abs_nonneg e
  have mE : Mult f e := by
    obtain ⟨m1, h1⟩ := mult_add f mA mX
    obtain ⟨m2, h2⟩ := rd_mult f (A + X)
    exact ⟨m1 - m2, by rw [he, hT, h1, ← h1, h2, h1]; push_cast; ring⟩
  have hCe := err_mult f (mult_add f mC mE)
  have hCe2 : |C + e - (S + X - T)| ≤ (g - 1) * D := by
    rw [show C + e - (S + X - T) = C - (S - A) by rw [he]; ring]; exact hCD
  have gD : (g - 1) * D ≤ (g - 1) * (D + |e|) := mul_le_mul_of_nonneg_left (by linarith) (by linarith)
  have hCe3 : |C + e| ≤ (g - 1) * (D + |e|) + (D + |e|) := by
    have := abs_add_le (C + e - (S + X - T)) (S + X - T)
    rw [sub_add_cancel] at this
    linarith
  have hu2 : f.u * |C + e| ≤ f.u * ((g - 1) * (D + |e|) + (D + |e|)) := mul_le_mul_of_nonneg_left hCe3 hu.le
  have hC' : |rd f (C + e) - (S + X - T)| ≤ (g * (1 + f.u) - 1) * (D + |e|) := by
    have := abs_add_le (rd f (C + e) - (C + e)) (C + e - (S + X - T))
    rw [sub_add_sub_cancel] at this
    linarith
  set G := g * (1 + f.u) with hG
  have hG1 : 1 ≤ G := le_of_le_of_eq (one_le f (k + 1)) eg
  have hG0 : 0 ≤ G := zero_le_one.trans hG1
  have eG2 : (1 + f.u) ^ (2 * (k + 1)) = G * G := by rw [two_mul, pow_add, eg]
  rw [eG2] at hg
  have hQ : 0 ≤ P + |X| := by linarith
  clear_value G
  have GQ : P + |X| ≤ G * (P + |X|) := le_mul_of_one_le_left hQ hG1
  have GGQ : G * (P + |X|) ≤ G * G * (P + |X|) := by
    rw [mul_assoc]; exact le_mul_of_one_le_left (mul_nonneg hG0 hQ) hG1
  have hu1' : 1 ≤ 1 + f.u := by linarith
  have gG : g ≤ g * (1 + f.u) := le_mul_of_one_le_right (by linarith) hu1'
  rw [← hG] at gG
  have hAb : |A| ≤ G * (P + |X|) := by
    have : g * (P + |X|) ≤ G * (P + |X|) := mul_le_mul_of_nonneg_right gG hQ
    linarith
  have hTb : |T| ≤ G * (P + |X|) := by
    have := abs_add_le (A + X) (-e)
    rw [show A + X + -e = T by rw [he]; ring, abs_neg] at this
    linarith
  have hCb : |rd f (C + e)| ≤ f.greatest := by
    have := abs_add_le (rd f (C + e) - (S + X - T)) (S + X - T)
    rw [sub_add_cancel] at this
    have h1 : G * (D + |e|) ≤ G * ((G - 1) * (P + |X|)) := mul_le_mul_of_nonneg_left hD' hG0
    linarith
  obtain ⟨t, c', hk, ft, fc⟩ := kahanAdd_fl hp (B := G * (P + |X|)) hA hC hx hTb hAb (by linarith)
    (by
      have h0 : 0 ≤ G * (P + |X|) := by linarith
      change |e| ≤ 2 * (G * (P + |X|))
      linarith) (by linarith) hCb
  rw [show sc = (sc.1, sc.2) from rfl, hk]
  refine ⟨T, rd f (C + e), D + |e|, ft, fc, ?_, hE', ?_, ?_⟩
  · have := abs_add_le S X; linarith
  · rw [eg]; exact hD'
  · rw [eg]; exact hC'

section
open Verif.Model.Accumulator Verif.Model.CoreUtils Verif.Model.Kahan Verif.Spec.LeastGreatest

theorem less_value {x y : Number} {X Y : ℚ} (hx : value x = some X) (hy : value y = some Y) : less x y = decide (X < Y) := by
  cases x <;> cases y <;> simp only [value, reduceCtorEq, Option.some.injEq] at hx hy
  subst hx hy
  rfl

theorem addAll_inv {f : Format} (hp : 1 ≤ f.p) (l : List Number) (xs : List ℚ) (hl : l.map value = xs.map some) (hf : ∀ x ∈ l, f.Has x)
    (a : Acc Number (Number × Number)) (k : ℕ) (S P : ℚ) (ps : List ℚ) (m M : ℚ) (hm : value a.impl.min = some m) (hM : value a.impl.max = some M)
    (hE : Extremes ps m M) (hc : a.count = BitVec.ofNat 64 (k + 1)) (hlen : k + 1 + l.length < 2 ^ 64) (hi : Inv f k a.impl.sum S P)
    (hg : 2 * (1 + f.u) ^ (2 * (k + l.length)) * (P + (xs.map (|·|)).sum) ≤ f.greatest) :
    ∃ a' m' M', a.addAll (kahan f) l = some a' ∧ a'.count = BitVec.ofNat 64 (k + 1 + l.length) ∧ value a'.impl.min = some m' ∧
      value a'.impl.max = some M' ∧ Extremes (xs.reverse ++ ps) m' M' ∧
      Inv f (k + l.length) a'.impl.sum (S + xs.sum) (P + (xs.map (|·|)).sum) := by
  induction l generalizing xs a k S P ps m M with
  | nil =>
    cases xs with
    | cons x xs => simp at hl
    | nil => exact ⟨a, m, M, rfl, by simpa using hc, hm, hM, by simpa using hE, by simpa using hi⟩
  | cons x l ih =>
    cases xs with
    | nil => simp at hl
    | cons X xs =>
      simp only [List.map_cons, List.cons.injEq] at hl
      simp only [List.length_cons, List.map_cons, List.sum_cons] at hlen hg ⊢
      have hu := u_pos f
      have hx := fl_has (hf x (by simp)) hl.1
      have hP : 0 ≤ P := by obtain ⟨_, _, _, _, _, h, _⟩ := hi; exact (abs_nonneg S).trans h
      have hr := abs_sum_le xs
      have hX := abs_nonneg X
      have step := inv_step hp hi hx (by
        refine le_trans ?_ hg
        apply mul_le_mul
        · exact mul_le_mul_of_nonneg_left (pow_le_pow_right₀ (by linarith) (by omega)) (by norm_num)
        · have : (xs.map (|·|)).sum = (xs.map _root_.abs).sum := rfl
          linarith
        · linarith
        · positivity)
      have hne : ¬a.count = 0#64 := by
        rw [hc]; intro e
        have := congrArg BitVec.toNat e
        rw [BitVec.toNat_ofNat, Nat.mod_eq_of_lt (by omega)] at this
        simp at this
      have hadd : a.add (kahan f) x = some ⟨⟨min2 less x a.impl.min, max2 less x a.impl.max, kahanAdd f a.impl.sum x⟩, a.count + 1#64⟩ := by
        unfold Acc.add
        rw [if_neg hne]
        rfl
      have hmin : ∃ m', value (min2 less x a.impl.min) = some m' ∧ m' = min X m := by
        unfold min2
        rw [less_value hl.1 hm]
        by_cases h : X < m
        · exact ⟨X, by simp [h, hl.1], (min_eq_left h.le).symm⟩
        · exact ⟨m, by simp [h, hm], (min_eq_right (not_lt.1 h)).symm⟩
      have hmax : ∃ M', value (max2 less x a.impl.max) = some M' ∧ M' = max X M := by
        unfold max2
        rw [less_value hl.1 hM]
        by_cases h : X < M
        · exact ⟨M, by simp [h, hM], (max_eq_right h.le).symm⟩
        · exact ⟨X, by simp [h, hl.1], (max_eq_left (not_lt.1 h)).symm⟩
      obtain ⟨m', vm, em⟩ := hmin
      obtain ⟨M', vM, eM⟩ := hmax
      have hE' : Extremes (X :: ps) m' M' := by
        obtain ⟨e1, e2, e3⟩ := hE
        subst em eM
        refine ⟨?_, ?_, ?_⟩
        · rcases min_choice X m with h | h <;> rw [h]
          · simp
          · simp [e1]
        · rcases max_choice X M with h | h <;> rw [h]
          · simp
          · simp [e2]
        · intro p hp
          rcases List.mem_cons.1 hp with rfl | h
          · exact ⟨min_le_left _ _, le_max_left _ _⟩
          · exact ⟨(min_le_right _ _).trans (e3 p h).1, (e3 p h).2.trans (le_max_right _ _)⟩
      obtain ⟨a', m'', M'', r1, r2, r3, r4, r5, r6⟩ := ih xs hl.2 (fun y hy => hf y (by simp [hy]))
        ⟨⟨min2 less x a.impl.min, max2 less x a.impl.max, kahanAdd f a.impl.sum x⟩, a.count + 1#64⟩ (k + 1) (S + X) (P + |X|) (X :: ps) m' M' vm vM
        hE' (show a.count + 1#64 = _ from hc ▸ (BitVec.ofNat_add (k + 1) 1).symm) (by omega) step (by
          rw [show k + 1 + l.length = k + (l.length + 1) by ring, show P + |X| + (xs.map (|·|)).sum = P + (|X| + (xs.map (|·|)).sum) by ring]
          exact hg)
      refine ⟨a', m'', M'', ?_, by rw [r2]; congr 1; ring, r3, r4, by simpa using r5, ?_⟩
      · simp only [Acc.addAll, hadd, r1]
      · rw [show k + (l.length + 1) = k + 1 + l.length by ring, show S + (X + xs.sum) = S + X + xs.sum by ring,
          show P + (|X| + (xs.map (|·|)).sum) = P + |X| + (xs.map (|·|)).sum by ring]
        exact r6

theorem accumulated {f : Format} (hp : 1 ≤ f.p) (l : List Number) (xs : List ℚ) (h0 : l ≠ []) (hl : l.map value = xs.map some)
    (hf : ∀ x ∈ l, f.Has x) (hn : l.length < 2 ^ 64) (hg : 2 * (1 + f.u) ^ (2 * l.length) * (xs.map (|·|)).sum ≤ f.greatest) :
    ∃ a m M y Y, (empty (kahan f)).addAll (kahan f) l = some a ∧ a.count.toNat = l.length ∧ value a.impl.min = some m ∧
      value a.impl.max = some M ∧ Extremes xs m M ∧ Op.add.eval f a.impl.sum.1 a.impl.sum.2 = y ∧ Fl f y Y ∧ |Y| ≤ f.greatest ∧
      |Y - xs.sum| ≤ f.u * |xs.sum| + (1 + f.u) * ((1 + f.u) ^ (l.length - 1) - 1) ^ 2 * (xs.map (|·|)).sum := by
  cases l with
  | nil => exact absurd rfl h0
  | cons x l =>
    cases xs with
    | nil => simp at hl
    | cons X xs =>
      simp only [List.map_cons, List.cons.injEq] at hl
      simp only [List.length_cons, Nat.add_sub_cancel, List.map_cons, List.sum_cons] at hn hg ⊢
      have hu := u_pos f
      have hX := abs_nonneg X
      have hr := abs_sum_le xs
      have hrr : (xs.map (|·|)).sum = (xs.map _root_.abs).sum := rfl
      have hx := fl_has (hf x (by simp)) hl.1
      have hi : Inv f 0 (x, Number.fin false 0) X |X| := ⟨X, 0, 0, hx, fl_zero f, le_rfl, by simp, by simp, by simp⟩
      have hadd : (empty (kahan f)).add (kahan f) x = some ⟨⟨x, x, (x, .fin false 0)⟩, 1#64⟩ := rfl
      obtain ⟨a, m, M, r1, r2, r3, r4, r5, r6⟩ := addAll_inv hp l xs hl.2 (fun y hy => hf y (by simp [hy])) ⟨⟨x, x, (x, .fin false 0)⟩, 1#64⟩ 0 X |X| [X]
        X X hl.1 hl.1 ⟨by simp, by simp, by simp⟩ rfl (by omega) hi (by
          refine le_trans ?_ hg
          apply mul_le_mul_of_nonneg_right _ (by linarith)
          exact mul_le_mul_of_nonneg_left (pow_le_pow_right₀ (by linarith) (by omega)) (by norm_num))
      rw [Nat.zero_add] at r6
      obtain ⟨A, C, D, hA, hC, hS, hD, hDP, hCD⟩ := r6
      set g := (1 + f.u) ^ l.length with hgd
      have g1 : 1 ≤ g := one_le f l.length
      set S := X + xs.sum with hSd
      set P := |X| + (xs.map (|·|)).sum with hPd
      have hP : 0 ≤ P := (abs_nonneg S).trans hS
      have hD0 : 0 ≤ D := (abs_nonneg _).trans hD
      have mAC := mult_add f (R_mult hA.choose_spec.choose_spec.2.2.2) (R_mult hC.choose_spec.choose_spec.2.2.2)
      have e1 := err_mult f mAC
      have e2 : |A + C - S| ≤ (g - 1) * D := by rw [show A + C - S = C - (S - A) by ring]; exact hCD
      have e3 : (g - 1) * D ≤ (g - 1) * ((g - 1) * P) := mul_le_mul_of_nonneg_left hDP (by linarith)
      have e4 : |A + C| ≤ |S| + (g - 1) * ((g - 1) * P) := by
        have := abs_add_le (A + C - S) S
        rw [sub_add_cancel] at this
        linarith
      have e5 : f.u * |A + C| ≤ f.u * (|S| + (g - 1) * ((g - 1) * P)) := mul_le_mul_of_nonneg_left e4 hu.le
      have e6 : |rd f (A + C) - S| ≤ f.u * |S| + (1 + f.u) * (g - 1) ^ 2 * P := by
        have := abs_add_le (rd f (A + C) - (A + C)) (A + C - S)
        rw [sub_add_sub_cancel] at this
        linarith
      have e7 : |rd f (A + C)| ≤ f.greatest := by
        refine le_trans ?_ hg
        have h1 := abs_add_le (rd f (A + C) - S) S
        rw [sub_add_cancel] at h1
        have h2 : (1 + f.u) ^ (2 * (l.length + 1)) = g ^ 2 * (1 + f.u) ^ 2 := by rw [hgd]; ring
        rw [h2]
        have h3 : |rd f (A + C)| ≤ (1 + f.u) * (1 + (g - 1) ^ 2) * P := by
          have h5 : f.u * |S| ≤ f.u * P := mul_le_mul_of_nonneg_left hS hu.le
          linarith
        refine h3.trans (mul_le_mul_of_nonneg_right ?_ hP)
        have h4 : 1 + (g - 1) ^ 2 ≤ 2 * g ^ 2 := by nlinarith
        have h6 : 0 < 1 + f.u := by linarith
        have h7 : (1 + f.u) ≤ (1 + f.u) ^ 2 := by nlinarith
        calc (1 + f.u) * (1 + (g - 1) ^ 2) ≤ (1 + f.u) ^ 2 * (2 * g ^ 2) := mul_le_mul h7 h4 (by positivity) (by positivity)
          _ = _ := by ring
      refine ⟨a, m, M, _, rd f (A + C), ?_, ?_, r3, r4, ?_, rfl, fl_add hp hA hC e7, e7, e6⟩
      · simp only [Acc.addAll, hadd, r1]
      · rw [r2, BitVec.toNat_ofNat, Nat.mod_eq_of_lt (by omega)]; ring
      · obtain ⟨q1, q2, q3⟩ := r5
        exact ⟨by simpa [or_comm] using q1, by simpa [or_comm] using q2, fun p hp => q3 p (by simpa [or_comm] using hp)⟩

end

end Verif.Proofs.Kahan
