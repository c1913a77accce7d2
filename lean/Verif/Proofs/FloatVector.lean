import Verif.Model.FloatVector
import Verif.Proofs.IntVector
import Verif.Proofs.HalfArith

/-! # Lemmas about floating-point formats and sums -/

namespace Verif.Proofs.FloatVector

open Verif.Spec.Parts Verif.Spec.Float Verif.Spec.SmallFloat Verif.Spec.IeeeArith Verif.Spec.FloatFormat Verif.Model.VectorStore
  Verif.Model.FloatVector Verif.Proofs.Float Verif.Proofs.VectorStore

theorem u_pos (f : Format) : 0 < f.u := by unfold Format.u; positivity
theorem tiny_pos (f : Format) : 0 < f.tiny := by unfold Format.tiny; positivity

/-- A multiple of the least number. -/
def Mult (f : Format) (z : ℚ) : Prop := ∃ n : ℤ, z = n * 2 ^ (f.emin - f.p + 1)

/-- The value after rounding. -/
def rd (f : Format) (z : ℚ) : ℚ := rounded f.p f.emin z

theorem err_normal (f : Format) {z : ℚ} (h : 2 ^ f.emin ≤ |z|) : |rd f z - z| ≤ f.u * |z| := by
  unfold rd rounded
  rw [if_neg (not_lt.2 h)]
  have := rnd_err f.p z
  unfold Format.u
  rw [div_mul_eq_mul_div, one_mul, le_div_iff₀ (by positivity)]
  exact this

theorem err (f : Format) (z : ℚ) : |rd f z - z| ≤ f.u * |z| + f.tiny := by
  rcases lt_or_ge |z| (2 ^ f.emin) with h | h
  · have hu : 0 ≤ f.u * |z| := mul_nonneg (u_pos f).le (abs_nonneg z)
    refine le_trans ?_ (le_add_of_nonneg_left hu)
    unfold rd rounded
    rw [if_pos h]
    set w : ℚ := 2 ^ (f.emin - f.p + 1) with hw
    have wp : 0 < w := by positivity
    have e : f.tiny = 1 / 2 * w := by
      rw [hw, zpow_add_one₀ (by norm_num), Format.tiny]; ring
    have e2 : (roundEven (z / w) : ℚ) * w - z = ((roundEven (z / w) : ℚ) - z / w) * w := by field_simp
    rw [e, e2, abs_mul, abs_of_pos wp]
    exact mul_le_mul_of_nonneg_right (roundEven_near _) wp.le
  · exact (err_normal f h).trans (le_add_of_nonneg_right (tiny_pos f).le)

theorem err_mult (f : Format) {z : ℚ} (hz : Mult f z) : |rd f z - z| ≤ f.u * |z| := by
  rcases lt_or_ge |z| (2 ^ f.emin) with h | h
  · obtain ⟨n, hn⟩ := hz
    have e : rd f z = z := by
      unfold rd rounded
      rw [if_pos h, hn, mul_div_assoc, div_self (by positivity), mul_one, roundEven_int]
    rw [e, sub_self, abs_zero]
    exact mul_nonneg (u_pos f).le (abs_nonneg z)
  · exact err_normal f h

theorem zpow_diff (a b : ℤ) (h : b ≤ a) : ∃ d : ℕ, (2 : ℚ) ^ a = ((2 ^ d : ℤ) : ℚ) * 2 ^ b := by
  obtain ⟨d, hd⟩ := Int.le.dest h
  refine ⟨d, ?_⟩
  rw [← hd, zpow_add₀ (by norm_num), zpow_natCast]
  push_cast
  ring

theorem rd_mult (f : Format) (z : ℚ) : Mult f (rd f z) := by
  unfold rd rounded
  split_ifs with h
  · exact ⟨_, rfl⟩
  · unfold rnd
    split_ifs with h0
    · exact ⟨0, by simp⟩
    · unfold ulp
      have hz : f.emin ≤ Int.log 2 |z| := by
        have := Int.zpow_le_iff_le_log (b := 2) (by norm_num) (r := |z|) (x := f.emin) (abs_pos.2 h0)
        exact this.1 (by exact_mod_cast not_lt.1 h)
      obtain ⟨d, hd⟩ := zpow_diff (Int.log 2 |z| - f.p + 1) (f.emin - f.p + 1) (by omega)
      exact ⟨roundEven (z / 2 ^ (Int.log 2 |z| - f.p + 1)) * 2 ^ d, by rw [hd]; push_cast; ring⟩

theorem mult_add (f : Format) {a b : ℚ} (ha : Mult f a) (hb : Mult f b) : Mult f (a + b) := by
  obtain ⟨m, rfl⟩ := ha
  obtain ⟨n, rfl⟩ := hb
  exact ⟨m + n, by push_cast; ring⟩

theorem rd_exact (f : Format) (hp : 1 ≤ f.p) (m k : ℤ) (hm : |m| ≤ 2 ^ f.p) (hk : f.emin - f.p + 1 ≤ k) : rd f (m * 2 ^ k) = m * 2 ^ k := by
  unfold rd rounded
  split_ifs with h
  · obtain ⟨d, hd⟩ := zpow_diff k (f.emin - f.p + 1) hk
    rw [hd, ← mul_assoc, mul_div_assoc, div_self (by positivity), mul_one, ← Int.cast_mul, roundEven_int]
  · exact rnd_exact f.p hp m k hm

theorem has_mult (f : Format) {x : Number} {X : ℚ} (hx : f.Has x) (hX : value x = some X) : Mult f X := by
  cases x with
  | nan => simp [value] at hX
  | inf s => simp [value] at hX
  | fin s a =>
    obtain ⟨⟨m, k, -, hk, rfl⟩, -⟩ := hx
    simp only [value, Option.some.injEq] at hX
    obtain ⟨d, hd⟩ := zpow_diff k (f.emin - f.p + 1) hk
    subst hX
    unfold signed
    split_ifs
    · exact ⟨-(m * 2 ^ d), by rw [hd]; push_cast; ring⟩
    · exact ⟨m * 2 ^ d, by rw [hd]; push_cast; ring⟩

theorem value_round (f : Format) {x : Number} {z : ℚ} (h : value x = some z) (hg : |rd f z| ≤ f.greatest) :
    value (f.round x) = some (rd f z) := by
  cases x with
  | nan => simp [value] at h
  | inf s => simp [value] at h
  | fin s a =>
    simp only [value, Option.some.injEq] at h
    subst h
    have e : rd f (signed s a) = signed s (rd f a) := by
      unfold signed
      cases s
      · rfl
      · exact HalfArith.round_neg _ _ _
    have ea : |signed s (rd f a)| = |rd f a| := by
      unfold signed; split_ifs
      · exact abs_neg _
      · rfl
    rw [e, ea] at hg
    have hle : ¬f.greatest < rounded f.p f.emin a := not_lt.2 ((le_abs_self _).trans hg)
    simp only [Format.round, Number.round, if_neg hle, value]
    rw [e]; rfl

theorem signed_abs (z : ℚ) : signed (decide (z < 0)) |z| = z := by
  unfold signed
  by_cases h : z < 0
  · rw [decide_eq_true h, abs_of_neg h]; simp
  · rw [decide_eq_false h, abs_of_nonneg (not_lt.1 h)]; simp

theorem value_add {x y : Number} {X Y : ℚ} (hx : value x = some X) (hy : value y = some Y) : value (x.add y) = some (X + Y) := by
  cases x <;> cases y <;> simp only [value, reduceCtorEq, Option.some.injEq] at hx hy
  subst hx hy
  simp only [Number.add]
  split_ifs with h
  · rw [h]; simp [value, signed]
  · simp only [value, signed_abs]

theorem value_mul {x y : Number} {X Y : ℚ} (hx : value x = some X) (hy : value y = some Y) : value (x.mul y) = some (X * Y) := by
  cases x <;> cases y <;> simp only [value, reduceCtorEq, Option.some.injEq] at hx hy
  rename_i s a t b
  subst hx hy
  simp only [Number.mul, value, Option.some.injEq, signed]
  cases s <;> cases t <;> simp

theorem value_div {x y : Number} {X Y : ℚ} (hx : value x = some X) (hy : value y = some Y) (h0 : Y ≠ 0) : value (x.div y) = some (X / Y) := by
  cases x <;> cases y <;> simp only [value, reduceCtorEq, Option.some.injEq] at hx hy
  rename_i s a t b
  subst hx hy
  have hb : b ≠ 0 := by rintro rfl; apply h0; simp [signed]
  simp only [Number.div, if_neg hb, value, Option.some.injEq, signed]
  cases s <;> cases t <;> simp [neg_div, div_neg]

theorem foldlM_some {α β : Type} (g : β → α → β) (l : List α) (b : β) : l.foldlM (fun b a => some (g b a)) b = some (l.foldl g b) := by
  induction l generalizing b with
  | nil => rfl
  | cons a l ih => rw [List.foldlM_cons]; exact ih _

/-- One addition. -/
theorem add_step (f : Format) {x y : Number} {X Y e B : ℚ} (hx : value x = some X) (hy : value y = some Y)
    (he : |rd f (X + Y) - (X + Y)| ≤ e) (hB : |X + Y| + e ≤ B) (hg : B ≤ f.greatest) :
    ∃ Z, value (Op.add.eval f x y) = some Z ∧ Mult f Z ∧ |Z - (X + Y)| ≤ e := by
  refine ⟨rd f (X + Y), value_round f (value_add hx hy) ?_, rd_mult f _, he⟩
  have : |rd f (X + Y)| ≤ |X + Y| + |rd f (X + Y) - (X + Y)| := by
    have := abs_add_le (X + Y) (rd f (X + Y) - (X + Y))
    rwa [add_sub_cancel] at this
  linarith

theorem abs_sum_le (l : List ℚ) : 0 ≤ (l.map abs).sum := by
  induction l with
  | nil => simp
  | cons a l ih => simp only [List.map_cons, List.sum_cons]; have := abs_nonneg a; linarith

theorem one_le (f : Format) (k : ℕ) : 1 ≤ (1 + f.u) ^ k := one_le_pow₀ (by linarith [u_pos f])

/-- Adding numbers of the format from left to right. -/
theorem sum_err (f : Format) (ts : List Number) (qs : List ℚ) (ht : ts.map value = qs.map some) (hm : ∀ q ∈ qs, Mult f q)
    (acc : Number) (A S P : ℚ) (k : ℕ) (hA : value acc = some A) (mA : Mult f A) (hE : |A - S| ≤ ((1 + f.u) ^ k - 1) * P) (hS : |S| ≤ P)
    (hg : (1 + f.u) ^ (k + qs.length) * (P + (qs.map abs).sum) ≤ f.greatest) :
    ∃ Y, value (ts.foldl (fun a b => Op.add.eval f a b) acc) = some Y ∧
      |Y - (S + qs.sum)| ≤ ((1 + f.u) ^ (k + qs.length) - 1) * (P + (qs.map abs).sum) := by
  induction qs generalizing ts acc A S P k with
  | nil =>
    cases ts with
    | cons t ts => simp at ht
    | nil => exact ⟨A, hA, by simpa using hE⟩
  | cons q qs ih =>
    cases ts with
    | nil => simp at ht
    | cons t ts =>
      simp only [List.map_cons, List.cons.injEq] at ht
      obtain ⟨ht1, ht2⟩ := ht
      simp only [List.map_cons, List.sum_cons, List.length_cons] at hg ⊢
      have hu := u_pos f
      have hP : 0 ≤ P := (abs_nonneg S).trans hS
      have hq := abs_nonneg q
      have hr := abs_sum_le qs
      have e1 : |A + q| ≤ (1 + f.u) ^ k * (P + |q|) := by
        have h1 : |A + q| ≤ |A - S| + |S| + |q| := by
          have := abs_add_le (A - S) (S + q)
          have h2 := abs_add_le S q
          rw [show A - S + (S + q) = A + q by ring] at this
          linarith
        have := one_le f k
        nlinarith
      have e2 : |A - S| ≤ ((1 + f.u) ^ k - 1) * (P + |q|) := by
        have := one_le f k
        nlinarith
      have emul : (1 + f.u) ^ (k + 1) = (1 + f.u) ^ k * (1 + f.u) := pow_succ _ _
      have eup : f.u * |A + q| ≤ f.u * ((1 + f.u) ^ k * (P + |q|)) := mul_le_mul_of_nonneg_left e1 hu.le
      obtain ⟨Z, hZ, mZ, eZ⟩ := add_step f (e := f.u * |A + q|) (B := (1 + f.u) ^ (k + 1) * (P + |q|)) hA ht1
        (err_mult f (mult_add f mA (hm q (by simp)))) (by rw [emul]; nlinarith) (by
          refine le_trans ?_ hg
          apply mul_le_mul
          · exact pow_le_pow_right₀ (by linarith) (by omega)
          · linarith
          · linarith
          · positivity)
      have := ih ts ht2 (fun x hx => hm x (by simp [hx])) _ Z (S + q) (P + |q|) (k + 1) hZ mZ (by
          have h3 := abs_add_le (Z - (A + q)) (A - S)
          rw [show Z - (A + q) + (A - S) = Z - (S + q) by ring] at h3
          rw [emul]
          nlinarith) (by have := abs_add_le S q; linarith) (by
          rw [show k + 1 + qs.length = k + (qs.length + 1) by ring, show P + |q| + (qs.map abs).sum = P + (|q| + (qs.map abs).sum) by ring]
          exact hg)
      obtain ⟨Y, hY, eY⟩ := this
      refine ⟨Y, hY, ?_⟩
      rw [show k + (qs.length + 1) = k + 1 + qs.length by ring, show S + (q + qs.sum) = S + q + qs.sum by ring,
        show P + (|q| + (qs.map abs).sum) = P + |q| + (qs.map abs).sum by ring]
      exact eY

/-- What an addition may take for the exact product `q`. -/
def Term (f : Format) (t : Number) (q : ℚ) : Prop :=
  ∃ T, value t = some T ∧ (T = q ∨ (|T - q| ≤ f.u * |q| + f.tiny ∧ Mult f T))

/-- The bound after `k` products of absolute sum `P`. -/
def bound (f : Format) (k : ℕ) (P : ℚ) : ℚ := ((1 + f.u) ^ k - 1) * P + k * f.tiny * (1 + f.u) ^ (k - 1)

theorem bound_mono (f : Format) {k l : ℕ} {P Q : ℚ} (hk : k ≤ l) (hP : 0 ≤ P) (h : P ≤ Q) : P + bound f k P ≤ Q + bound f l Q := by
  have hu := u_pos f
  have ht := tiny_pos f
  unfold bound
  have h1 : (1 + f.u) ^ k * P ≤ (1 + f.u) ^ l * Q :=
    mul_le_mul (pow_le_pow_right₀ (by linarith) hk) h hP (by positivity)
  have h2 : (k : ℚ) * f.tiny * (1 + f.u) ^ (k - 1) ≤ l * f.tiny * (1 + f.u) ^ (l - 1) := by
    apply mul_le_mul
    · exact mul_le_mul_of_nonneg_right (by exact_mod_cast hk) ht.le
    · exact pow_le_pow_right₀ (by linarith) (by omega)
    · positivity
    · positivity
  linarith

/-- One step of the recurrence. -/
theorem bound_step (f : Format) {A S P q Z T : ℚ} {k : ℕ} (hk : 1 ≤ k) (hE : |A - S| ≤ bound f k P) (hS : |S| ≤ P)
    (hT : (T = q ∧ |Z - (A + T)| ≤ f.u * |A + T| + f.tiny) ∨ (|T - q| ≤ f.u * |q| + f.tiny ∧ |Z - (A + T)| ≤ f.u * |A + T|)) :
    |Z - (S + q)| ≤ bound f (k + 1) (P + |q|) := by
  obtain ⟨j, rfl⟩ : ∃ j, k = j + 1 := ⟨k - 1, by omega⟩
  have hu := u_pos f
  have ht := tiny_pos f
  unfold bound at *
  simp only [Nat.add_sub_cancel] at *
  have hb := one_le f j
  set b := (1 + f.u) ^ j with hbd
  have ea : (1 + f.u) ^ (j + 1) = b * (1 + f.u) := pow_succ _ _
  have ea2 : (1 + f.u) ^ (j + 1 + 1) = b * (1 + f.u) * (1 + f.u) := by rw [pow_succ, ea]
  rw [ea] at hE
  rw [ea, ea2]
  push_cast at hE ⊢
  have hP : 0 ≤ P := (abs_nonneg S).trans hS
  have hq := abs_nonneg q
  have hj : (0 : ℚ) ≤ j := by positivity
  have hSq : |S + q| ≤ P + |q| := (abs_add_le S q).trans (by linarith)
  have h1 : |Z - (S + q)| ≤ |Z - (A + T)| + |A - S| + |T - q| := by
    have x1 := abs_add_le (Z - (A + T)) (A - S + (T - q))
    have x2 := abs_add_le (A - S) (T - q)
    rw [show Z - (A + T) + (A - S + (T - q)) = Z - (S + q) by ring] at x1
    linarith
  have h2 : |A + T| ≤ P + |q| + |A - S| + |T - q| := by
    have x1 := abs_add_le (S + q) (A - S + (T - q))
    have x2 := abs_add_le (A - S) (T - q)
    rw [show S + q + (A - S + (T - q)) = A + T by ring] at x1
    linarith
  have hm : f.u * |A + T| ≤ f.u * (P + |q| + |A - S| + |T - q|) := mul_le_mul_of_nonneg_left h2 hu.le
  have hE' : (1 + f.u) * |A - S| ≤ (1 + f.u) * ((b * (1 + f.u) - 1) * P + (j + 1) * f.tiny * b) :=
    mul_le_mul_of_nonneg_left hE (by linarith)
  have q1 : (1 + f.u) * (1 + f.u) * |q| ≤ b * (1 + f.u) * (1 + f.u) * |q| := by
    have : 0 ≤ (1 + f.u) * (1 + f.u) * |q| := by positivity
    nlinarith
  have t1 : (1 + f.u) * f.tiny ≤ f.tiny * (b * (1 + f.u)) := by
    have : 0 ≤ (1 + f.u) * f.tiny := by positivity
    nlinarith
  rcases hT with ⟨rfl, hz⟩ | ⟨hT, hz⟩
  · rw [sub_self, abs_zero] at h1 hm
    have hut : 0 ≤ f.u * f.tiny := by positivity
    have huq : 0 ≤ f.u * |T| := by positivity
    have huuq : 0 ≤ f.u * (f.u * |T|) := by positivity
    nlinarith
  · have hT' : (1 + f.u) * |T - q| ≤ (1 + f.u) * (f.u * |q| + f.tiny) := mul_le_mul_of_nonneg_left hT (by linarith)
    nlinarith

theorem dot_err (f : Format) (ts : List Number) (qs : List ℚ) (ht : List.Forall₂ (Term f) ts qs)
    (acc : Number) (A S P : ℚ) (k : ℕ) (hk : 1 ≤ k) (hA : value acc = some A) (mA : Mult f A) (hE : |A - S| ≤ bound f k P) (hS : |S| ≤ P)
    (hg : P + (qs.map abs).sum + bound f (k + qs.length) (P + (qs.map abs).sum) ≤ f.greatest) :
    ∃ Y, value (ts.foldl (fun a b => Op.add.eval f a b) acc) = some Y ∧
      |Y - (S + qs.sum)| ≤ bound f (k + qs.length) (P + (qs.map abs).sum) := by
  induction ht generalizing acc A S P k with
  | nil => exact ⟨A, hA, by simpa using hE⟩
  | @cons t q ts qs h1 h2 ih =>
    simp only [List.map_cons, List.sum_cons, List.length_cons] at hg ⊢
    obtain ⟨T, hT, hT'⟩ := h1
    have hP : 0 ≤ P := (abs_nonneg S).trans hS
    have hq := abs_nonneg q
    have hr := abs_sum_le qs
    have hSq : |S + q| ≤ P + |q| := (abs_add_le S q).trans (by linarith)
    have hcase : (T = q ∧ |rd f (A + T) - (A + T)| ≤ f.u * |A + T| + f.tiny) ∨
        (|T - q| ≤ f.u * |q| + f.tiny ∧ |rd f (A + T) - (A + T)| ≤ f.u * |A + T|) := by
      rcases hT' with h | ⟨h, m⟩
      · exact Or.inl ⟨h, err f _⟩
      · exact Or.inr ⟨h, err_mult f (mult_add f mA m)⟩
    have hb := bound_step f hk hE hS hcase
    have hz : |rd f (A + T)| ≤ f.greatest := by
      have x1 := abs_add_le (rd f (A + T) - (S + q)) (S + q)
      rw [sub_add_cancel] at x1
      have x2 := bound_mono f (k := k + 1) (l := k + (qs.length + 1)) (P := P + |q|) (Q := P + (|q| + (qs.map abs).sum)) (by omega)
        (by linarith) (by linarith)
      linarith
    have := ih _ (rd f (A + T)) (S + q) (P + |q|) (k + 1) (by omega) (value_round f (value_add hA hT) hz) (rd_mult f _) hb hSq (by
      rw [show k + 1 + qs.length = k + (qs.length + 1) by ring, show P + |q| + (qs.map abs).sum = P + (|q| + (qs.map abs).sum) by ring]
      exact hg)
    obtain ⟨Y, hY, eY⟩ := this
    refine ⟨Y, hY, ?_⟩
    rw [show k + (qs.length + 1) = k + 1 + qs.length by ring, show S + (q + qs.sum) = S + q + qs.sum by ring,
      show P + (|q| + (qs.map abs).sum) = P + |q| + (qs.map abs).sum by ring]
    exact eY

end Verif.Proofs.FloatVector
