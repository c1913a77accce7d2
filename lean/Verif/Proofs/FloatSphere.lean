import Verif.Model.FloatSphere
import Verif.Proofs.FloatBox
import Mathlib.Tactic.Positivity

/-! # Lemmas about squared distances that may overflow -/

namespace Verif.Proofs.FloatSphere

open Verif.Spec.IeeeArith Verif.Spec.FloatFormat Verif.Model.VectorStore Verif.Model.FloatVector Verif.Model.FloatSphere
  Verif.Proofs.FloatVector Verif.Proofs.Kahan Verif.Proofs.Approx Verif.Proofs.FloatBox

/-- A number that is not negative and at least `q`, maybe infinite. -/
def Low (t : Number) (q : ℚ) : Prop := t = .inf false ∨ ∃ X, value t = some X ∧ 0 ≤ X ∧ q ≤ X ∧ ∀ s a, t = .fin s a → 0 ≤ a

/-- A finite number that is not negative and at most `q`. -/
def High (t : Number) (q : ℚ) : Prop := ∃ X, value t = some X ∧ 0 ≤ X ∧ X ≤ q

theorem Low.mono {t : Number} {q q' : ℚ} (h : Low t q) (hq : q' ≤ q) : Low t q' := by
  rcases h with h | ⟨X, h1, h2, h3, h4⟩
  · exact .inl h
  · exact .inr ⟨X, h1, h2, hq.trans h3, h4⟩

theorem rd_low {f : Format} {z : ℚ} (h : 0 ≤ z) : (1 - f.u) * z - f.tiny ≤ rd f z := by
  have h1 := neg_abs_le (rd f z - z)
  have h2 := err f z
  rw [abs_of_nonneg h] at h2
  linarith

theorem rd_high {f : Format} {z : ℚ} (h : 0 ≤ z) : rd f z ≤ (1 + f.u) * z + f.tiny := by
  have h1 := le_abs_self (rd f z - z)
  have h2 := err f z
  rw [abs_of_nonneg h] at h2
  linarith

theorem round_mag {f : Format} (hp : 1 ≤ f.p) {x : Number} (hx : ∀ s a, x = .fin s a → 0 ≤ a) (s : Bool) (a : ℚ) (h : f.round x = .fin s a) : 0 ≤ a := by
  cases x with
  | nan => simp [Format.round, Number.round] at h
  | inf t => simp [Format.round, Number.round] at h
  | fin t b =>
    simp only [Format.round, Number.round] at h
    split_ifs at h
    simp only [Number.fin.injEq] at h
    rw [← h.2]
    exact rd_nonneg (f := f) hp (hx _ _ rfl)

theorem u_le_one (f : Format) : f.u ≤ 1 := by
  unfold Format.u
  rw [div_le_one (by positivity)]
  exact one_le_pow₀ (by norm_num)

/-- Rounding a number that is not negative. -/
theorem Low.round {f : Format} (hp : 1 ≤ f.p) (hg : 0 ≤ f.greatest) {t : Number} {q : ℚ} (h : Low t q) : Low (f.round t) ((1 - f.u) * q - f.tiny) := by
  rcases h with rfl | ⟨X, h1, h2, h3, h4⟩
  · exact .inl rfl
  · have hu : 0 ≤ 1 - f.u := by linarith [u_le_one f]
    have r0 := rd_nonneg (f := f) hp h2
    rcases out hp hg h1 h4 with ⟨-, h⟩ | ⟨-, h⟩ | ⟨h, -⟩
    · refine .inr ⟨_, h, r0, ?_, round_mag hp h4⟩
      have := rd_low (f := f) h2
      have := mul_le_mul_of_nonneg_left h3 hu
      linarith
    · exact .inl h
    · linarith

theorem Low.add {x y : Number} {p q : ℚ} (hx : Low x p) (hy : Low y q) : Low (x.add y) (p + q) := by
  rcases hx with rfl | ⟨X, h1, h2, h3, h4⟩ <;> rcases hy with rfl | ⟨Y, k1, k2, k3, k4⟩
  · exact .inl rfl
  · left
    cases y <;> simp [value] at k1
    rfl
  · left
    cases x <;> simp [value] at h1
    rfl
  · exact .inr ⟨_, value_add h1 k1, by linarith, by linarith, fun _ _ => add_mag⟩

theorem High.round {f : Format} (hp : 1 ≤ f.p) {t : Number} {q : ℚ} (h : High t q) (hg : (1 + f.u) * q + f.tiny ≤ f.greatest) :
    High (f.round t) ((1 + f.u) * q + f.tiny) := by
  obtain ⟨X, h1, h2, h3⟩ := h
  have r0 := rd_nonneg (f := f) hp h2
  have hu := u_pos f
  have r1 := rd_high (f := f) h2
  have := mul_le_mul_of_nonneg_left h3 (by linarith : 0 ≤ 1 + f.u)
  exact ⟨rd f X, value_round f h1 (by rw [abs_of_nonneg r0]; linarith), r0, by linarith⟩

theorem High.add {x y : Number} {p q : ℚ} (hx : High x p) (hy : High y q) : High (x.add y) (p + q) := by
  obtain ⟨X, h1, h2, h3⟩ := hx
  obtain ⟨Y, k1, k2, k3⟩ := hy
  exact ⟨_, value_add h1 k1, by linarith, by linarith⟩

theorem mult_sub {f : Format} {x y : Number} {X Y : ℚ} (hx : f.Has x) (hy : f.Has y) (hX : value x = some X) (hY : value y = some Y) : Mult f (X - Y) := by
  rw [sub_eq_add_neg]
  exact mult_add f (has_mult f hx hX) (mult_neg (has_mult f hy hY))

theorem square_mag {x : Number} (s : Bool) (a : ℚ) (h : x.mul x = .fin s a) : 0 ≤ a := by
  cases x with
  | nan => simp [Number.mul] at h
  | inf t => simp [Number.mul] at h
  | fin t b =>
    simp only [Number.mul, Number.fin.injEq] at h
    rw [← h.2]; exact mul_self_nonneg b

theorem low_square {x : Number} {X : ℚ} (h : value x = some X) : Low (x.mul x) (X ^ 2) :=
  .inr ⟨_, value_mul h h, mul_self_nonneg X, by rw [sq], square_mag⟩

theorem high_square {x : Number} {X : ℚ} (h : value x = some X) : High (x.mul x) (X ^ 2) := ⟨_, value_mul h h, mul_self_nonneg X, by rw [sq]⟩

theorem mul_square {x : Number} {X : ℚ} (h : value x = some X) : (∃ s a, x = .fin s a) := by
  cases x <;> simp [value] at h
  exact ⟨_, _, rfl⟩

/-- The square of a difference, contracted or not. -/
theorem low_product {f : Format} (hp : 1 ≤ f.p) (k : Bool) {x y : Number} {X Y : ℚ} (hx : f.Has x) (hy : f.Has y) (hX : value x = some X) (hY : value y = some Y) :
    Low (product f (Op.sub.eval f x y, Op.sub.eval f x y) k) ((1 - f.u) ^ 3 * (X - Y) ^ 2 - f.tiny) := by
  have hg := greatest_nonneg hx hX
  have hu : 0 ≤ 1 - f.u := by linarith [u_le_one f]
  have hu0 := u_pos f
  have ht := tiny_pos f
  have key : Low ((Op.sub.eval f x y).mul (Op.sub.eval f x y)) ((1 - f.u) ^ 2 * (X - Y) ^ 2) := by
    rcases out_add hp hg hX (value_negate hY) with ⟨-, h⟩ | ⟨-, h⟩ | ⟨-, h⟩
    · refine (low_square h).mono ?_
      rw [← sub_eq_add_neg]
      have er := err_mult f (mult_sub hx hy hX hY)
      have e := abs_sub_abs_le_abs_sub (X - Y) (rd f (X - Y))
      rw [abs_sub_comm (X - Y)] at e
      have e2 : (1 - f.u) * |X - Y| ≤ |rd f (X - Y)| := by linarith
      rw [← sq_abs (X - Y), ← sq_abs (rd f (X - Y)), ← mul_pow]
      exact pow_le_pow_left₀ (mul_nonneg hu (abs_nonneg _)) e2 2
    · left
      rw [show Op.sub.eval f x y = .inf false from h]; rfl
    · left
      rw [show Op.sub.eval f x y = .inf true from h]; rfl
  unfold product
  cases k
  · simp only [Bool.false_eq_true, if_false]
    exact (key.round hp hg).mono (by rw [← mul_assoc, ← pow_succ'])
  · simp only [if_true]
    refine key.mono ?_
    have : (1 - f.u) ^ 3 * (X - Y) ^ 2 ≤ (1 - f.u) ^ 2 * (X - Y) ^ 2 :=
      mul_le_mul_of_nonneg_right (pow_le_pow_of_le_one hu (by linarith) (by omega)) (sq_nonneg _)
    linarith

theorem high_product {f : Format} (hp : 1 ≤ f.p) (k : Bool) {x y : Number} {X Y : ℚ} (hx : f.Has x) (hy : f.Has y) (hX : value x = some X) (hY : value y = some Y)
    (hg : 2 ≤ f.greatest) (h : (1 + f.u) ^ 3 * (X - Y) ^ 2 + f.tiny ≤ f.greatest) :
    High (product f (Op.sub.eval f x y, Op.sub.eval f x y) k) ((1 + f.u) ^ 3 * (X - Y) ^ 2 + f.tiny) := by
  have hu0 := u_pos f
  have hu1 := u_le_one f
  have ht := tiny_pos f
  have er := err_mult f (mult_sub hx hy hX hY)
  have e0 : |rd f (X - Y)| ≤ (1 + f.u) * |X - Y| := by
    have := abs_add_le (X - Y) (rd f (X - Y) - (X - Y))
    rw [add_sub_cancel] at this
    linarith
  have small : |rd f (X - Y)| ≤ f.greatest := by
    refine e0.trans ?_
    rcases le_or_gt |X - Y| 1 with h1 | h1
    · have := mul_le_mul (by linarith : 1 + f.u ≤ 2) h1 (abs_nonneg _) (by norm_num)
      linarith
    · have h4 : |X - Y| ≤ (X - Y) ^ 2 := by rw [← sq_abs]; nlinarith
      have h5 : (1 + f.u) ^ 1 ≤ (1 + f.u) ^ 3 := pow_le_pow_right₀ (by linarith) (by omega)
      rw [pow_one] at h5
      have := mul_le_mul h5 h4 (abs_nonneg _) (by positivity)
      linarith
  have hv : value (Op.sub.eval f x y) = some (rd f (X - Y)) := value_round f (value_sub hX hY) small
  have key : High ((Op.sub.eval f x y).mul (Op.sub.eval f x y)) ((1 + f.u) ^ 2 * (X - Y) ^ 2) := by
    obtain ⟨Z, z1, z2, z3⟩ := high_square hv
    refine ⟨Z, z1, z2, z3.trans ?_⟩
    rw [← sq_abs (X - Y), ← sq_abs (rd f (X - Y)), ← mul_pow]
    exact pow_le_pow_left₀ (abs_nonneg _) e0 2
  have e3 : (1 + f.u) * ((1 + f.u) ^ 2 * (X - Y) ^ 2) = (1 + f.u) ^ 3 * (X - Y) ^ 2 := by ring
  unfold product
  cases k
  · simp only [Bool.false_eq_true, if_false]
    have := key.round hp (by rw [e3]; exact h)
    rwa [e3] at this
  · simp only [if_true]
    obtain ⟨Z, z1, z2, z3⟩ := key
    refine ⟨Z, z1, z2, z3.trans ?_⟩
    have : (1 + f.u) ^ 2 * (X - Y) ^ 2 ≤ (1 + f.u) ^ 3 * (X - Y) ^ 2 :=
      mul_le_mul_of_nonneg_right (pow_le_pow_right₀ (by linarith) (by omega)) (sq_nonneg _)
    linarith

/-- distance_squared in three dimensions. -/
theorem dist3 (f : Format) (k1 k2 k3 : Bool) (a b c x y z : Number) :
    Model.FloatLength.distanceSquared f (.three k1 k2 k3) (.three a b c) (.three x y z) =
      some (Op.add.eval f (Op.add.eval f (product f (Op.sub.eval f x a, Op.sub.eval f x a) k1) (product f (Op.sub.eval f y b, Op.sub.eval f y b) k2))
        (product f (Op.sub.eval f z c, Op.sub.eval f z c) k3)) := rfl

/-- A triple of numbers of a format, and their values. -/
structure Point (f : Format) (v : Store Number 3) (x y z : ℚ) : Prop where
  has : ∀ a ∈ parts v, f.Has a
  are : (parts v).map value = [some x, some y, some z]

theorem Point.elim {f : Format} {v : Store Number 3} {x y z : ℚ} (h : Point f v x y z) :
    ∃ a b c, v = .three a b c ∧ f.Has a ∧ f.Has b ∧ f.Has c ∧ value a = some x ∧ value b = some y ∧ value c = some z := by
  obtain ⟨h1, h2⟩ := h
  cases v with
  | three a b c =>
    simp only [parts, List.map_cons, List.map_nil, List.cons.injEq, and_true] at h2
    exact ⟨a, b, c, rfl, h1 a (by simp [parts]), h1 b (by simp [parts]), h1 c (by simp [parts]), h2.1, h2.2.1, h2.2.2⟩

theorem low_dist {f : Format} (hp : 1 ≤ f.p) (k : Store Bool 3) {v w : Store Number 3} {x y z x' y' z' : ℚ} (hv : Point f v x y z) (hw : Point f w x' y' z') :
    ∃ d, Model.FloatLength.distanceSquared f k v w = some d ∧ Low d ((1 - f.u) ^ 5 * ((x' - x) ^ 2 + (y' - y) ^ 2 + (z' - z) ^ 2) - 5 * f.tiny) := by
  obtain ⟨a, b, c, rfl, ha, hb, hc, va, vb, vc⟩ := hv.elim
  obtain ⟨a', b', c', rfl, ha', hb', hc', va', vb', vc'⟩ := hw.elim
  cases k with
  | three k1 k2 k3 =>
    refine ⟨_, dist3 _ _ _ _ _ _ _ _ _ _, ?_⟩
    have hg := greatest_nonneg ha va
    have hu0 := u_pos f
    have hu : 0 ≤ 1 - f.u := by linarith [u_le_one f]
    have ht := tiny_pos f
    have l := ((((low_product hp k1 ha' ha va' va).add (low_product hp k2 hb' hb vb' vb)).round hp hg).add (low_product hp k3 hc' hc vc' vc)).round hp hg
    refine l.mono ?_
    set A := (x' - x) ^ 2
    set B := (y' - y) ^ 2
    set C := (z' - z) ^ 2
    have hC : (1 - f.u) ^ 5 * C ≤ (1 - f.u) ^ 4 * C :=
      mul_le_mul_of_nonneg_right (pow_le_pow_of_le_one hu (by linarith) (by omega)) (sq_nonneg _)
    have t1 : (1 - f.u) * f.tiny ≤ 1 * f.tiny := mul_le_mul_of_nonneg_right (by linarith) ht.le
    have t2 : (1 - f.u) ^ 2 * f.tiny ≤ 1 * f.tiny := mul_le_mul_of_nonneg_right (pow_le_one₀ hu (by linarith)) ht.le
    have e : (1 - f.u) * ((1 - f.u) * ((1 - f.u) ^ 3 * A - f.tiny + ((1 - f.u) ^ 3 * B - f.tiny)) - f.tiny + ((1 - f.u) ^ 3 * C - f.tiny)) - f.tiny
      = (1 - f.u) ^ 5 * A + (1 - f.u) ^ 5 * B + (1 - f.u) ^ 4 * C - 2 * ((1 - f.u) ^ 2 * f.tiny) - 2 * ((1 - f.u) * f.tiny) - f.tiny := by ring
    rw [e]
    linarith

theorem high_dist {f : Format} (hp : 1 ≤ f.p) (hg : 2 ≤ f.greatest) (k : Store Bool 3) {v w : Store Number 3} {x y z x' y' z' : ℚ} (hv : Point f v x y z)
    (hw : Point f w x' y' z') (h : (1 + f.u) ^ 5 * ((x' - x) ^ 2 + (y' - y) ^ 2 + (z' - z) ^ 2) + 5 * (1 + f.u) ^ 2 * f.tiny ≤ f.greatest) :
    ∃ d, Model.FloatLength.distanceSquared f k v w = some d ∧
      High d ((1 + f.u) ^ 5 * ((x' - x) ^ 2 + (y' - y) ^ 2 + (z' - z) ^ 2) + 5 * (1 + f.u) ^ 2 * f.tiny) := by
  obtain ⟨a, b, c, rfl, ha, hb, hc, va, vb, vc⟩ := hv.elim
  obtain ⟨a', b', c', rfl, ha', hb', hc', va', vb', vc'⟩ := hw.elim
  cases k with
  | three k1 k2 k3 =>
    refine ⟨_, dist3 _ _ _ _ _ _ _ _ _ _, ?_⟩
    have hu0 := u_pos f
    have ht := tiny_pos f
    set A := (x' - x) ^ 2 with hA
    set B := (y' - y) ^ 2 with hB
    set C := (z' - z) ^ 2 with hC
    have A0 : 0 ≤ A := sq_nonneg _
    have B0 : 0 ≤ B := sq_nonneg _
    have C0 : 0 ≤ C := sq_nonneg _
    have g : ∀ (i j : ℕ) (q : ℚ), 0 ≤ q → i ≤ j → (1 + f.u) ^ i * q ≤ (1 + f.u) ^ j * q := fun i j q hq hij =>
      mul_le_mul_of_nonneg_right (pow_le_pow_right₀ (by linarith) hij) hq
    have t1 := g 0 2 f.tiny ht.le (by omega)
    have t2 := g 1 2 f.tiny ht.le (by omega)
    have p1 := fun q hq => g 3 5 q hq (by omega)
    have p2 := fun q hq => g 4 5 q hq (by omega)
    have q1 := g 3 4 A A0 (by omega)
    have q2 := g 3 4 B B0 (by omega)
    have z1 : ∀ i : ℕ, ∀ q : ℚ, 0 ≤ q → 0 ≤ (1 + f.u) ^ i * q := fun i q hq => mul_nonneg (by positivity) hq
    have a5 := z1 5 A A0
    have b5 := z1 5 B B0
    have c5 := z1 5 C C0
    have t0 := z1 2 f.tiny ht.le
    rw [pow_zero, one_mul] at t1
    rw [pow_one] at t2
    have s1 := high_product hp k1 ha' ha va' va hg (by rw [← hA]; linarith [p1 A A0])
    have s2 := high_product hp k2 hb' hb vb' vb hg (by rw [← hB]; linarith [p1 B B0])
    have s3 := high_product hp k3 hc' hc vc' vc hg (by rw [← hC]; linarith [p1 C C0])
    rw [← hA] at s1
    rw [← hB] at s2
    rw [← hC] at s3
    have e1 : (1 + f.u) * ((1 + f.u) ^ 3 * A + f.tiny + ((1 + f.u) ^ 3 * B + f.tiny)) + f.tiny
      = (1 + f.u) ^ 4 * A + (1 + f.u) ^ 4 * B + 2 * ((1 + f.u) * f.tiny) + f.tiny := by ring
    have s4 := (s1.add s2).round hp (by rw [e1]; linarith [p2 A A0, p2 B B0])
    rw [e1] at s4
    have e2 : (1 + f.u) * ((1 + f.u) ^ 4 * A + (1 + f.u) ^ 4 * B + 2 * ((1 + f.u) * f.tiny) + f.tiny + ((1 + f.u) ^ 3 * C + f.tiny)) + f.tiny
      = (1 + f.u) ^ 5 * A + (1 + f.u) ^ 5 * B + (1 + f.u) ^ 4 * C + 2 * ((1 + f.u) ^ 2 * f.tiny) + 2 * ((1 + f.u) * f.tiny) + f.tiny := by ring
    have s5 := (s4.add s3).round hp (by rw [e2]; linarith [p2 C C0])
    rw [e2] at s5
    obtain ⟨Z, y1, y2, y3⟩ := s5
    exact ⟨Z, y1, y2, by linarith [p2 C C0]⟩

/-- The square of the radius. -/
theorem low_radius {f : Format} (hp : 1 ≤ f.p) (hg : 0 ≤ f.greatest) {r : Number} {R : ℚ} (h : value r = some R) :
    Low (Op.mul.eval f r r) ((1 - f.u) * R ^ 2 - f.tiny) := (low_square h).round hp hg

theorem high_radius {f : Format} (hp : 1 ≤ f.p) {r : Number} {R : ℚ} (h : value r = some R) (hg : (1 + f.u) * R ^ 2 + f.tiny ≤ f.greatest) :
    High (Op.mul.eval f r r) ((1 + f.u) * R ^ 2 + f.tiny) := (high_square h).round hp hg

theorem atMost_low_high {x y : Number} {p q : ℚ} (hx : Low x p) (hy : High y q) (h : Model.FloatBox.atMost x y = true) : p ≤ q := by
  obtain ⟨Y, k1, k2, k3⟩ := hy
  rcases hx with rfl | ⟨X, h1, h2, h3, h4⟩
  · cases y <;> simp [value] at k1
    simp [Model.FloatBox.atMost, Model.Kahan.atLeast, Model.Kahan.less] at h
  · have := (atLeast_values k1 h1).1 h
    linarith

theorem atMost_high_low {x y : Number} {p q : ℚ} (hx : High x p) (hy : Low y q) (h : p ≤ q) : Model.FloatBox.atMost x y = true := by
  obtain ⟨X, k1, k2, k3⟩ := hx
  rcases hy with rfl | ⟨Y, h1, h2, h3, h4⟩
  · cases x <;> simp [value] at k1
    rfl
  · exact (atLeast_values h1 k1).2 (by linarith)

theorem sub_swap (f : Format) (x y : Number) : (Op.sub.eval f x y).mul (Op.sub.eval f x y) = (Op.sub.eval f y x).mul (Op.sub.eval f y x) := by
  cases x with
  | nan => cases y <;> rfl
  | inf s =>
    cases y with
    | nan => rfl
    | inf t => cases s <;> cases t <;> rfl
    | fin t b => cases s <;> rfl
  | fin s a =>
    cases y with
    | nan => rfl
    | inf t => cases t <;> rfl
    | fin t b =>
      have e : ∀ (s : Bool) (a : ℚ), signed (!s) a = -signed s a := by intro s a; cases s <;> simp [signed]
      simp only [Op.eval, Number.sub, Number.negate, Number.add, e]
      set A := signed s a
      set B := signed t b
      by_cases h : A = B
      · have h1 : A + -B = 0 := by rw [h]; ring
        have h2 : B + -A = 0 := by rw [h]; ring
        rw [if_pos h1, if_pos h2]
        simp only [Format.round, Number.round]
        split_ifs <;> simp [Number.mul]
      · have h1 : A + -B ≠ 0 := fun h' => h (by linarith)
        have h2 : B + -A ≠ 0 := fun h' => h (by linarith)
        have h3 : |B + -A| = |A + -B| := by rw [← abs_neg]; congr 1; ring
        rw [if_neg h1, if_neg h2, h3]
        simp only [Format.round, Number.round]
        split_ifs <;> simp [Number.mul]

theorem product_swap (f : Format) (x y : Number) (k : Bool) :
    product f (Op.sub.eval f x y, Op.sub.eval f x y) k = product f (Op.sub.eval f y x, Op.sub.eval f y x) k := by
  have h := sub_swap f x y
  unfold product
  cases k
  · simp only [Bool.false_eq_true, if_false]
    show f.round _ = f.round _
    rw [h]
  · simp only [if_true]; exact h

theorem round_zero {f : Format} (hp : 1 ≤ f.p) (hg : 0 ≤ f.greatest) (s : Bool) : f.round (.fin s 0) = .fin s 0 := by
  have : Spec.SmallFloat.rounded f.p f.emin 0 = 0 := rd_zero hp
  simp [Format.round, Number.round, this, hg]

theorem product_self {f : Format} (hp : 1 ≤ f.p) (hg : 0 ≤ f.greatest) {x : Number} {X : ℚ} (k : Bool) (h : value x = some X) :
    product f (Op.sub.eval f x x, Op.sub.eval f x x) k = .fin false 0 := by
  obtain ⟨s, a, rfl⟩ := mul_square h
  have e : ∃ t, Op.sub.eval f (.fin s a) (.fin s a) = .fin t 0 := by
    have e : ∀ (s : Bool) (a : ℚ), signed (!s) a = -signed s a := by intro s a; cases s <;> simp [signed]
    simp only [Op.eval, Number.sub, Number.negate, Number.add, e, add_neg_cancel, if_true]
    exact ⟨_, round_zero hp hg _⟩
  obtain ⟨t, e⟩ := e
  rw [e]
  unfold product
  cases k
  · simp only [Bool.false_eq_true, if_false, Op.eval, Number.mul, mul_zero, bne_self_eq_false]
    exact round_zero hp hg _
  · simp [Number.mul]

theorem zero_add' {f : Format} (hp : 1 ≤ f.p) (hg : 0 ≤ f.greatest) : Op.add.eval f (.fin false 0) (.fin false 0) = .fin false 0 := by
  simp only [Op.eval, Number.add, signed, Bool.false_eq_true, if_false, add_zero, if_true, Bool.and_false]
  exact round_zero hp hg _

theorem low_nonneg {f : Format} (hp : 1 ≤ f.p) (hg : 0 ≤ f.greatest) {r : Number} {R : ℚ} (h : value r = some R) : Low (Op.mul.eval f r r) 0 := by
  rcases low_radius hp hg h with h | ⟨X, h1, h2, -, h4⟩
  · exact .inl h
  · exact .inr ⟨X, h1, h2, h2, h4⟩

theorem round_int {f : Format} (hp : 1 ≤ f.p) (he : f.emin - f.p + 1 ≤ 0) (hg : 2 ^ f.p ≤ f.greatest) {x : Number} {m : ℤ} (h : value x = some (m : ℚ))
    (hm : |m| ≤ 2 ^ f.p) : value (f.round x) = some (m : ℚ) := by
  have e : rd f (m : ℚ) = m := by simpa using rd_exact f hp m 0 hm he
  have := value_round f h (by
    rw [e]
    refine le_trans ?_ hg
    exact_mod_cast hm)
  rwa [e] at this

theorem add_int {f : Format} (hp : 1 ≤ f.p) (he : f.emin - f.p + 1 ≤ 0) (hg : 2 ^ f.p ≤ f.greatest) {x y : Number} {m n : ℤ} (hx : value x = some (m : ℚ))
    (hy : value y = some (n : ℚ)) (hm : |m + n| ≤ 2 ^ f.p) : value (Op.add.eval f x y) = some ((m + n : ℤ) : ℚ) :=
  round_int hp he hg (by rw [value_add hx hy]; push_cast; rfl) hm

theorem product_int {f : Format} (hp : 1 ≤ f.p) (he : f.emin - f.p + 1 ≤ 0) (hg : 2 ^ f.p ≤ f.greatest) (k : Bool) {x y : Number} {m n : ℤ}
    (hx : value x = some (m : ℚ)) (hy : value y = some (n : ℚ)) (hm : (m - n) ^ 2 ≤ 2 ^ f.p) :
    value (product f (Op.sub.eval f x y, Op.sub.eval f x y) k) = some (((m - n) ^ 2 : ℤ) : ℚ) := by
  have h1 : |m - n| ≤ 2 ^ f.p := by
    rcases eq_or_ne (m - n) 0 with h | h
    · rw [h, abs_zero]; positivity
    · have : 1 ≤ |m - n| := Int.one_le_abs h
      rw [← sq_abs] at hm
      nlinarith
  have h2 : value (Op.sub.eval f x y) = some ((m - n : ℤ) : ℚ) := round_int hp he hg (by rw [value_sub hx hy]; push_cast; rfl) h1
  have h3 : value ((Op.sub.eval f x y).mul (Op.sub.eval f x y)) = some (((m - n) ^ 2 : ℤ) : ℚ) := by rw [value_mul h2 h2]; push_cast; rw [sq]
  unfold product
  cases k
  · simp only [Bool.false_eq_true, if_false]
    exact round_int hp he hg h3 (by rw [abs_of_nonneg (sq_nonneg _)]; exact hm)
  · simpa using h3

end Verif.Proofs.FloatSphere
