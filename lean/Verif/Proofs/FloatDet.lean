import Verif.Spec.Determinants
import Verif.Model.FloatDet
import Verif.Proofs.FloatError
import Mathlib.Tactic.Positivity
import Mathlib.Tactic.FieldSimp
/-!
# The errors of expansions along a row
-/
namespace Verif.Proofs.FloatDet
open Verif.Spec.IeeeArith Verif.Spec.FloatFormat Verif.Spec.Determinants Verif.Model.VectorStore Verif.Model.FloatVector Verif.Proofs.FloatVector
open Verif.Model.FloatProducts Verif.Model.FloatDet Verif.Proofs.FloatProducts Verif.Proofs.FloatError

/-- The expansion of a permanent along its first column. -/
theorem permanent_succ_column_zero {n : ℕ} (A : Matrix (Fin n.succ) (Fin n.succ) ℚ) :
    A.permanent = ∑ i : Fin n.succ, A i 0 * (A.submatrix i.succAbove Fin.succ).permanent := by
  unfold Matrix.permanent
  rw [Finset.univ_perm_fin_succ, ← Finset.univ_product_univ]
  simp only [Finset.sum_map, Equiv.toEmbedding_apply, Finset.sum_product]
  refine Finset.sum_congr rfl fun i _ => Fin.cases ?_ (fun i => ?_) i
  · simp only [Fin.prod_univ_succ, Finset.mul_sum, Equiv.Perm.decomposeFin_symm_apply_zero, Equiv.swap_self, id,
      Equiv.Perm.decomposeFin_symm_apply_succ, Fin.succAbove_zero, Equiv.coe_refl, Matrix.submatrix_apply]
  · rw [Finset.mul_sum]
    refine Eq.trans (Finset.sum_congr rfl fun σ _ => ?_) (Equiv.sum_comp (Equiv.mulLeft (Fin.cycleRange i)) _)
    simp only [Fin.prod_univ_succ, Equiv.Perm.decomposeFin_symm_apply_zero, Equiv.Perm.decomposeFin_symm_apply_succ, Matrix.submatrix_apply,
      Equiv.coe_mulLeft, Equiv.Perm.mul_apply, Fin.succAbove_cycleRange]

/-- The expansion along the first row. -/
theorem spread_succ {n : ℕ} (A : Matrix (Fin (n + 1)) (Fin (n + 1)) ℚ) : spread A = ∑ j, |A 0 j| * minorSpread A j 0 := by
  unfold minorSpread spread
  rw [← Matrix.permanent_transpose, permanent_succ_column_zero]
  refine Finset.sum_congr rfl fun j _ => ?_
  rw [← Matrix.permanent_transpose]
  rfl

theorem spread_zero (A : Matrix (Fin 0) (Fin 0) ℚ) : spread A = 1 := by
  unfold spread
  exact Matrix.permanent_isEmpty

theorem spread_one (A : Matrix (Fin 1) (Fin 1) ℚ) : spread A = |A 0 0| := by
  rw [spread_succ]
  simp [minorSpread, spread_zero]

theorem spread_two (A : Matrix (Fin 2) (Fin 2) ℚ) : spread A = |A 0 0| * |A 1 1| + |A 0 1| * |A 1 0| := by
  rw [spread_succ]
  simp [minorSpread, spread_one, Fin.sum_univ_succ, Fin.succAbove]

theorem spread_nonneg {n : ℕ} (A : Matrix (Fin n) (Fin n) ℚ) : 0 ≤ spread A :=
  Finset.sum_nonneg fun _ _ => Finset.prod_nonneg fun _ _ => abs_nonneg _

/-- `n! * B ^ n` bounds it. -/
theorem spread_le {n : ℕ} (A : Matrix (Fin n) (Fin n) ℚ) {B : ℚ} (h : ∀ i j, |A i j| ≤ B) : spread A ≤ n.factorial * B ^ n := by
  unfold spread Matrix.permanent
  refine (Finset.sum_le_card_nsmul _ _ (B ^ n) fun σ _ => ?_).trans ?_
  · refine (Finset.prod_le_prod (fun _ _ => abs_nonneg _) (fun i _ => h _ _)).trans ?_
    simp
  · rw [Finset.card_univ, Fintype.card_perm, Fintype.card_fin, nsmul_eq_mul]

theorem minorSpread_le {n : ℕ} (A : Matrix (Fin (n + 1)) (Fin (n + 1)) ℚ) {B : ℚ} (h : ∀ i j, |A i j| ≤ B) (i j : Fin (n + 1)) :
    minorSpread A i j ≤ n.factorial * B ^ n := spread_le _ fun _ _ => h _ _

theorem det_le {n : ℕ} (A : Matrix (Fin n) (Fin n) ℚ) : |A.det| ≤ spread A := by
  rw [Matrix.det_apply]
  refine (Finset.abs_sum_le_sum_abs _ _).trans (Finset.sum_le_sum fun σ _ => ?_)
  rw [show |Equiv.Perm.sign σ • ∏ i, A (σ i) i| = |∏ i, A (σ i) i| by
    rcases Int.units_eq_one_or (Equiv.Perm.sign σ) with h | h <;> simp [h]]
  rw [Finset.abs_prod]
  rfl

theorem difference_near (f : Format) (k : Bool × Bool) {a b c d : Number} {A B C D G : ℚ} (ha : value a = some A) (hb : value b = some B) (hc : value c = some C)
    (hd : value d = some D) (hA : |A| ≤ G) (hB : |B| ≤ G) (hC : |C| ≤ G) (hD : |D| ≤ G) (hg : (1 + f.u) ^ 2 * (2 * G ^ 2 + 3 * f.tiny) ≤ f.greatest) :
    Near f 2 (|A| * |B| + |C| * |D|) (3 * f.tiny) (difference f k (a, b) (c, d)) (A * B - C * D) := by
  have ht := tiny_pos f
  have G0 : 0 ≤ G := (abs_nonneg A).trans hA
  have p1 : |A| * |B| ≤ G ^ 2 := by rw [sq]; exact mul_le_mul hA hB (abs_nonneg _) G0
  have p2 : |C| * |D| ≤ G ^ 2 := by rw [sq]; exact mul_le_mul hC hD (abs_nonneg _) G0
  have G2 : 0 ≤ G ^ 2 := sq_nonneg G
  have q1 := (Near.exact f ha).product (Near.exact f hb) k.1 (grow (l := 2) (B := 2 * G ^ 2 + 3 * f.tiny) (by omega) (by linarith) (by linarith) hg)
  have q2 := (Near.exact f hc).product (Near.exact f hd) k.2 (grow (l := 2) (B := 2 * G ^ 2 + 3 * f.tiny) (by omega) (by linarith) (by linarith) hg)
  have r := (q1.sub q2).round (grow (l := 2) (B := 2 * G ^ 2 + 3 * f.tiny) (by omega) (by linarith) (by linarith) hg)
  exact r.mono (by omega) le_rfl (by linarith)

theorem scaled_near (f : Format) (k : Bool) {x y : Number} {X Y M T G P : ℚ} {l : ℕ} (hx : value x = some X) (hX : |X| ≤ G) (hy : Near f l M T y Y) (hM : M ≤ P)
    (hg : (1 + f.u) ^ (l + 1) * (G * P + (G * T + f.tiny)) ≤ f.greatest) :
    Near f (l + 1) (|X| * M) (G * T + f.tiny) (product f (x, y) k) (X * Y) := by
  have ht := tiny_pos f
  have M0 : 0 ≤ M := (abs_nonneg Y).trans hy.choose_spec.2.1
  have T0 : 0 ≤ T := hy.choose_spec.2.2.1
  have G0 : 0 ≤ G := (abs_nonneg X).trans hX
  have p : |X| * M ≤ G * P := mul_le_mul hX hM M0 G0
  have q : |X| * T ≤ G * T := mul_le_mul_of_nonneg_right hX T0
  have q0 : 0 ≤ |X| * T := mul_nonneg (abs_nonneg _) T0
  have p0 : 0 ≤ |X| * M := mul_nonneg (abs_nonneg _) M0
  have r := (Near.exact f hx).product hy k (grow (l := l + 1) (B := G * P + (G * T + f.tiny)) (by omega) (by linarith) (by linarith) hg)
  exact r.mono (by omega) le_rfl (by linarith)

theorem expand3_near (f : Format) (k : Bool × Bool × Bool) {x0 x1 x2 y0 y1 y2 : Number} {X0 X1 X2 Y0 Y1 Y2 M0 M1 M2 T G P : ℚ} {l : ℕ} (h0 : value x0 = some X0)
    (h1 : value x1 = some X1) (h2 : value x2 = some X2) (b0 : |X0| ≤ G) (b1 : |X1| ≤ G) (b2 : |X2| ≤ G) (n0 : Near f l M0 T y0 Y0) (n1 : Near f l M1 T y1 Y1)
    (n2 : Near f l M2 T y2 Y2) (m0 : M0 ≤ P) (m1 : M1 ≤ P) (m2 : M2 ≤ P)
    (hg : (1 + f.u) ^ (l + 3) * (3 * (G * P) + (3 * (G * T) + 5 * f.tiny)) ≤ f.greatest) :
    Near f (l + 3) (|X0| * M0 + |X1| * M1 + |X2| * M2) (3 * (G * T) + 5 * f.tiny) (expand3 f k (x0, y0) (x1, y1) (x2, y2)) (X0 * Y0 - X1 * Y1 + X2 * Y2) := by
  have ht := tiny_pos f
  have T0 : 0 ≤ T := n0.choose_spec.2.2.1
  have G0 : 0 ≤ G := (abs_nonneg X0).trans b0
  have M00 : 0 ≤ M0 := (abs_nonneg Y0).trans n0.choose_spec.2.1
  have M10 : 0 ≤ M1 := (abs_nonneg Y1).trans n1.choose_spec.2.1
  have M20 : 0 ≤ M2 := (abs_nonneg Y2).trans n2.choose_spec.2.1
  have GP0 : 0 ≤ G * P := mul_nonneg G0 (M00.trans m0)
  have GT0 : 0 ≤ G * T := mul_nonneg G0 T0
  have p0 : |X0| * M0 ≤ G * P := mul_le_mul b0 m0 M00 G0
  have p1 : |X1| * M1 ≤ G * P := mul_le_mul b1 m1 M10 G0
  have p2 : |X2| * M2 ≤ G * P := mul_le_mul b2 m2 M20 G0
  have hh : (1 + f.u) ^ (l + 1) * (G * P + (G * T + f.tiny)) ≤ f.greatest := grow (l := l + 3) (by omega) (by linarith) (by linarith) hg
  have q0 := scaled_near f k.1 h0 b0 n0 m0 hh
  have q1 := scaled_near f k.2.1 h1 b1 n1 m1 hh
  have q2 := scaled_near f k.2.2 h2 b2 n2 m2 hh
  have r := (q0.sub q1).round (grow (l := l + 3) (by omega) (by linarith) (by linarith) hg)
  have s := (r.add (q2.mono (k' := l + 1 + 1) (by omega) le_rfl le_rfl)).round (grow (l := l + 3) (by omega) (by linarith) (by linarith) hg)
  exact s.mono (by omega) le_rfl (by linarith)

theorem expand4_near (f : Format) (k : Bool × Bool × Bool × Bool) {x0 x1 x2 x3 y0 y1 y2 y3 : Number} {X0 X1 X2 X3 Y0 Y1 Y2 Y3 M0 M1 M2 M3 T G P : ℚ} {l : ℕ}
    (h0 : value x0 = some X0) (h1 : value x1 = some X1) (h2 : value x2 = some X2) (h3 : value x3 = some X3) (b0 : |X0| ≤ G) (b1 : |X1| ≤ G) (b2 : |X2| ≤ G)
    (b3 : |X3| ≤ G) (n0 : Near f l M0 T y0 Y0) (n1 : Near f l M1 T y1 Y1) (n2 : Near f l M2 T y2 Y2) (n3 : Near f l M3 T y3 Y3) (m0 : M0 ≤ P) (m1 : M1 ≤ P)
    (m2 : M2 ≤ P) (m3 : M3 ≤ P) (hg : (1 + f.u) ^ (l + 4) * (4 * (G * P) + (4 * (G * T) + 7 * f.tiny)) ≤ f.greatest) :
    Near f (l + 4) (|X0| * M0 + |X1| * M1 + |X2| * M2 + |X3| * M3) (4 * (G * T) + 7 * f.tiny) (expand4 f k (x0, y0) (x1, y1) (x2, y2) (x3, y3))
      (X0 * Y0 - X1 * Y1 + X2 * Y2 - X3 * Y3) := by
  have ht := tiny_pos f
  have T0 : 0 ≤ T := n0.choose_spec.2.2.1
  have G0 : 0 ≤ G := (abs_nonneg X0).trans b0
  have M00 : 0 ≤ M0 := (abs_nonneg Y0).trans n0.choose_spec.2.1
  have M30 : 0 ≤ M3 := (abs_nonneg Y3).trans n3.choose_spec.2.1
  have GP0 : 0 ≤ G * P := mul_nonneg G0 (M00.trans m0)
  have GT0 : 0 ≤ G * T := mul_nonneg G0 T0
  have p3 : |X3| * M3 ≤ G * P := mul_le_mul b3 m3 M30 G0
  have r := expand3_near f (k.1, k.2.1, k.2.2.1) h0 h1 h2 b0 b1 b2 n0 n1 n2 m0 m1 m2 (grow (l := l + 4) (by omega) (by linarith) (by linarith) hg)
  have p : |X0| * M0 + |X1| * M1 + |X2| * M2 ≤ 3 * (G * P) := by
    have M10 : 0 ≤ M1 := (abs_nonneg Y1).trans n1.choose_spec.2.1
    have M20 : 0 ≤ M2 := (abs_nonneg Y2).trans n2.choose_spec.2.1
    linarith [mul_le_mul b0 m0 M00 G0, mul_le_mul b1 m1 M10 G0, mul_le_mul b2 m2 M20 G0]
  have q3 := scaled_near f k.2.2.2 h3 b3 n3 m3 (grow (l := l + 4) (by omega) (by linarith) (by linarith) hg)
  have s := (r.sub (q3.mono (k' := l + 3) (by omega) le_rfl le_rfl)).round (grow (l := l + 4) (by omega) (by linarith) (by linarith) hg)
  exact s.mono (by omega) le_rfl (by linarith)

theorem det_three (X : Matrix (Fin 3) (Fin 3) ℚ) : X.det = X 0 0 * (X.submatrix Fin.succ (Fin.succAbove 0)).det
    - X 0 1 * (X.submatrix Fin.succ (Fin.succAbove 1)).det + X 0 2 * (X.submatrix Fin.succ (Fin.succAbove 2)).det := by
  rw [Matrix.det_succ_row_zero, Fin.sum_univ_three, Fin.val_zero, Fin.val_one, Fin.val_two]
  ring

theorem det_four (X : Matrix (Fin 4) (Fin 4) ℚ) : X.det = X 0 0 * (X.submatrix (Fin.succAbove 0) (Fin.succAbove 0)).det
    - X 0 1 * (X.submatrix (Fin.succAbove 0) (Fin.succAbove 1)).det + X 0 2 * (X.submatrix (Fin.succAbove 0) (Fin.succAbove 2)).det
    - X 0 3 * (X.submatrix (Fin.succAbove 0) (Fin.succAbove 3)).det := by
  rw [Matrix.det_succ_row_zero, Fin.sum_univ_four, Fin.val_zero, Fin.val_one, Fin.val_two, show ((3 : Fin 4) : ℕ) = 3 from rfl,
    show (Fin.succAbove (0 : Fin 4)) = Fin.succ from Fin.succAbove_zero]
  ring

/-- The expansion of two rows. -/
def two (f : Format) (k : Bool × Bool) (x : Fin 2 → Fin 2 → Number) : Number := difference f k (x 0 0, x 1 1) (x 0 1, x 1 0)

/-- The expansion of three rows. -/
def three (f : Format) (k : Bool × Bool × Bool) (k0 k1 k2 : Bool × Bool) (x : Fin 3 → Fin 3 → Number) : Number :=
  expand3 f k (x 0 0, difference f k0 (x 1 1, x 2 2) (x 1 2, x 2 1)) (x 0 1, difference f k1 (x 1 0, x 2 2) (x 1 2, x 2 0))
      (x 0 2, difference f k2 (x 1 0, x 2 1) (x 1 1, x 2 0))

/-- Two rows. -/
theorem two_near (f : Format) (k : Bool × Bool) (x : Fin 2 → Fin 2 → Number) (X : Matrix (Fin 2) (Fin 2) ℚ) (h : ∀ i j, value (x i j) = some (X i j)) {G : ℚ}
    (hG : ∀ i j, |X i j| ≤ G) (hg : (1 + f.u) ^ 2 * (2 * G ^ 2 + 3 * f.tiny) ≤ f.greatest) :
    Near f 2 (spread X) (3 * f.tiny) (two f k x) X.det := by
  rw [spread_two, Matrix.det_fin_two]
  exact difference_near f k (h _ _) (h _ _) (h _ _) (h _ _) (hG _ _) (hG _ _) (hG _ _) (hG _ _) hg

/-- Three rows. -/
theorem three_near (f : Format) (k : Bool × Bool × Bool) (k0 k1 k2 : Bool × Bool) (x : Fin 3 → Fin 3 → Number) (X : Matrix (Fin 3) (Fin 3) ℚ)
    (h : ∀ i j, value (x i j) = some (X i j)) {G : ℚ} (h1 : 1 ≤ G) (hG : ∀ i j, |X i j| ≤ G) (hg : (1 + f.u) ^ 5 * (6 * G ^ 3 + 14 * G * f.tiny) ≤ f.greatest) :
    Near f 5 (spread X) (14 * G * f.tiny) (three f k k0 k1 k2 x) X.det := by
  have ht := tiny_pos f
  have gt : f.tiny ≤ G * f.tiny := le_mul_of_one_le_left ht.le h1
  have g2 : G ^ 2 ≤ G ^ 3 := pow_le_pow_right₀ h1 (by omega)
  have g20 : 0 ≤ G ^ 2 := sq_nonneg G
  have hg2 : (1 + f.u) ^ 2 * (2 * G ^ 2 + 3 * f.tiny) ≤ f.greatest := grow (l := 5) (by omega) (by linarith) (by linarith) hg
  have n := fun (j : Fin 3) (kk : Bool × Bool) => two_near f kk (fun a b => x (Fin.succ a) (j.succAbove b)) (X.submatrix Fin.succ j.succAbove) (fun a b => h _ _) (fun a b => hG _ _) hg2
  have m : ∀ j : Fin 3, minorSpread X j 0 ≤ 2 * G ^ 2 := fun j => by
    have := minorSpread_le X hG j 0
    norm_num [Nat.factorial] at this
    exact this
  have e := expand3_near f k (h 0 0) (h 0 1) (h 0 2) (hG 0 0) (hG 0 1) (hG 0 2) (n 0 k0) (n 1 k1) (n 2 k2) (m 0) (m 1) (m 2)
    (grow (l := 5) (by omega) (by linarith [show G * (2 * G ^ 2) = 2 * G ^ 3 by ring]) (by linarith) hg)
  have e2 := e.mono (k' := 5) (T' := 14 * G * f.tiny) (by omega) le_rfl (by linarith)
  rw [det_three, spread_succ, Fin.sum_univ_three]
  exact e2

/-- Four rows. -/
theorem four_near (f : Format) (k : Bool × Bool × Bool × Bool) (c0 c1 c2 c3 x0 x1 x2 x3 : Number) (X : Matrix (Fin 4) (Fin 4) ℚ) (h0 : value x0 = some (X 0 0))
    (h1 : value x1 = some (X 0 1)) (h2 : value x2 = some (X 0 2)) (h3 : value x3 = some (X 0 3)) {G : ℚ} (hG1 : 1 ≤ G) (hG : ∀ i j, |X i j| ≤ G)
    (n0 : Near f 5 (minorSpread X 0 0) (14 * G * f.tiny) c0 (X.submatrix (Fin.succAbove 0) (Fin.succAbove 0)).det)
    (n1 : Near f 5 (minorSpread X 1 0) (14 * G * f.tiny) c1 (X.submatrix (Fin.succAbove 0) (Fin.succAbove 1)).det)
    (n2 : Near f 5 (minorSpread X 2 0) (14 * G * f.tiny) c2 (X.submatrix (Fin.succAbove 0) (Fin.succAbove 2)).det)
    (n3 : Near f 5 (minorSpread X 3 0) (14 * G * f.tiny) c3 (X.submatrix (Fin.succAbove 0) (Fin.succAbove 3)).det)
    (hg : (1 + f.u) ^ 9 * (24 * G ^ 4 + 63 * G ^ 2 * f.tiny) ≤ f.greatest) :
    Near f 9 (spread X) (63 * G ^ 2 * f.tiny) (expand4 f k (x0, c0) (x1, c1) (x2, c2) (x3, c3)) X.det := by
  have ht := tiny_pos f
  have g2 : 1 ≤ G ^ 2 := one_le_pow₀ hG1
  have gt : f.tiny ≤ G ^ 2 * f.tiny := le_mul_of_one_le_left ht.le g2
  have g40 : 0 ≤ G ^ 4 := by positivity
  have m : ∀ j : Fin 4, minorSpread X j 0 ≤ 6 * G ^ 3 := fun j => by
    have := minorSpread_le X hG j 0
    norm_num [Nat.factorial] at this
    exact this
  have e := expand4_near f k h0 h1 h2 h3 (hG 0 0) (hG 0 1) (hG 0 2) (hG 0 3) n0 n1 n2 n3 (m 0) (m 1) (m 2) (m 3)
    (grow (l := 9) (by omega) (by linarith [show G * (6 * G ^ 3) = 6 * G ^ 4 by ring, show G * (14 * G * f.tiny) = 14 * (G ^ 2 * f.tiny) by ring]) (by linarith) hg)
  have e2 := e.mono (k' := 9) (T' := 63 * G ^ 2 * f.tiny) (by omega) le_rfl (by linarith [show G * (14 * G * f.tiny) = 14 * (G ^ 2 * f.tiny) by ring])
  rw [det_four, spread_succ, Fin.sum_univ_four]
  exact e2

theorem less_three (f : Format) {G : ℚ} (h1 : 1 ≤ G) (hg : (1 + f.u) ^ 9 * (24 * G ^ 4 + 63 * G ^ 2 * f.tiny) ≤ f.greatest) :
    (1 + f.u) ^ 5 * (6 * G ^ 3 + 14 * G * f.tiny) ≤ f.greatest := by
  have ht := tiny_pos f
  have g3 : G ^ 3 ≤ G ^ 4 := pow_le_pow_right₀ h1 (by omega)
  have g30 : 0 ≤ G ^ 3 := by positivity
  have gt : G * f.tiny ≤ G ^ 2 * f.tiny := mul_le_mul_of_nonneg_right (by rw [sq]; exact le_mul_of_one_le_left (by linarith) h1) ht.le
  have gt0 : 0 ≤ G * f.tiny := by positivity
  exact grow (l := 9) (by omega) (by linarith) (by linarith) hg

theorem less_two (f : Format) {G : ℚ} (h1 : 1 ≤ G) (hg : (1 + f.u) ^ 5 * (6 * G ^ 3 + 14 * G * f.tiny) ≤ f.greatest) :
    (1 + f.u) ^ 2 * (2 * G ^ 2 + 3 * f.tiny) ≤ f.greatest := by
  have ht := tiny_pos f
  have gt : f.tiny ≤ G * f.tiny := le_mul_of_one_le_left ht.le h1
  have g2 : G ^ 2 ≤ G ^ 3 := pow_le_pow_right₀ h1 (by omega)
  have g20 : 0 ≤ G ^ 2 := sq_nonneg G
  exact grow (l := 5) (by omega) (by linarith) (by linarith) hg

/-- The reciprocal of what is near, and a product with it. -/
theorem reciprocal_times (f : Format) {k : ℕ} {d c : Number} {D C M E T P θ : ℚ} (hD : D ≠ 0) (hd : ∃ z, value d = some z ∧ |z - D| ≤ E) (h1 : θ < 1)
    (hE : E ≤ θ * |D|) (hc : Near f k M T c C) (hM : M ≤ P) (hP : 1 ≤ P)
    (hg : (1 + f.u) ^ (k + 2) / (1 - θ) * ((P + T) * (1 / |D| + f.tiny) + f.tiny) ≤ f.greatest) :
    ∃ z, value (times f (reciprocal f d) c) = some z ∧
      |z - C / D| ≤ ((1 + f.u) ^ (k + 2) / (1 - θ) - 1) * (M / |D|) + (1 + f.u) ^ (k + 2) / (1 - θ) * (M * f.tiny + T / |D| + T * f.tiny + f.tiny) := by
  obtain ⟨z, hz, hz'⟩ := hd
  obtain ⟨y, hy, hC, T0, hy'⟩ := hc
  have hu := u_pos f
  have ht := tiny_pos f
  have D0 : 0 < |D| := abs_pos.2 hD
  have E0 : 0 ≤ E := (abs_nonneg _).trans hz'
  have θ0 : 0 ≤ θ := by
    by_contra hn
    have := mul_neg_of_neg_of_pos (not_le.1 hn) D0
    linarith
  have s0 : 0 < 1 - θ := by linarith
  have zl : (1 - θ) * |D| ≤ |z| := by
    have := abs_add_le (D - z) z
    rw [sub_add_cancel, abs_sub_comm] at this
    linarith
  have zp : 0 < |z| := (mul_pos s0 D0).trans_le zl
  have z0 : z ≠ 0 := abs_pos.1 zp
  have M0 : 0 ≤ M := (abs_nonneg C).trans hC
  -- the reciprocal before rounding
  have rl : |1 / z| ≤ 1 / (1 - θ) * (1 / |D|) := by
    rw [abs_div, abs_one, div_mul_div_comm, one_mul]
    exact one_div_le_one_div_of_le (mul_pos s0 D0) zl
  have re : |1 / z - 1 / D| ≤ (1 / (1 - θ) - 1) * (1 / |D|) := by
    rw [show 1 / z - 1 / D = (D - z) / (z * D) by field_simp, abs_div, abs_mul, abs_sub_comm]
    rw [show (1 / (1 - θ) - 1) * (1 / |D|) = (θ * |D|) / ((1 - θ) * |D| * |D|) by field_simp; ring]
    exact div_le_div₀ (mul_nonneg θ0 D0.le) (hz'.trans hE) (by positivity) (mul_le_mul_of_nonneg_right zl D0.le)
  -- rounded
  set g := (1 + f.u) / (1 - θ) with hgdef
  have g1 : 1 ≤ g := by rw [hgdef, le_div_iff₀ s0]; linarith
  have we : |rd f (1 / z) - 1 / D| ≤ (g - 1) * (1 / |D|) + f.tiny := by
    have e := err f (1 / z)
    have t := abs_add_le (rd f (1 / z) - 1 / z) (1 / z - 1 / D)
    rw [sub_add_sub_cancel] at t
    have t2 : f.u * |1 / z| ≤ f.u * (1 / (1 - θ) * (1 / |D|)) := mul_le_mul_of_nonneg_left rl hu.le
    have : g = 1 / (1 - θ) + f.u * (1 / (1 - θ)) := by rw [hgdef]; ring
    rw [this]
    linarith
  have a := one_le f k
  set q := (1 + f.u) ^ k with hq
  have total : (1 + f.u) ^ (k + 2) / (1 - θ) = (1 + f.u) * (g * q) := by rw [hgdef, hq, pow_add]; ring
  rw [total] at hg ⊢
  have gq : 1 ≤ g * q := one_le_mul_of_one_le_of_one_le g1 a
  have i0 : 0 < 1 / |D| := by positivity
  have w1 : |rd f (1 / z)| ≤ g * (1 / |D| + f.tiny) := by
    have t := abs_add_le (1 / D) (rd f (1 / z) - 1 / D)
    rw [add_sub_cancel, abs_div, abs_one] at t
    have : 1 * f.tiny ≤ g * f.tiny := mul_le_mul_of_nonneg_right g1 ht.le
    linarith
  have over_ : value (reciprocal f d) = some (rd f (1 / z)) := by
    refine value_round f (value_div (by rfl) hz z0) (w1.trans ?_)
    refine le_trans ?_ hg
    have b1 : g * (1 / |D| + f.tiny) ≤ (1 + f.u) * (g * q) * (1 / |D| + f.tiny) := by
      refine mul_le_mul_of_nonneg_right ?_ (by positivity)
      rw [← mul_assoc, mul_comm (1 + f.u), mul_assoc]
      exact le_mul_of_one_le_right (by linarith) (one_le_mul_of_one_le_of_one_le (by linarith) a)
    refine b1.trans (mul_le_mul_of_nonneg_left ?_ (by positivity))
    have : 1 * (1 / |D| + f.tiny) ≤ (P + T) * (1 / |D| + f.tiny) := mul_le_mul_of_nonneg_right (by linarith) (by positivity)
    linarith
  -- the product before rounding
  set w := rd f (1 / z) with hw
  have g0 : 0 ≤ g := by linarith
  have we' : |w - 1 / D| ≤ (g - 1) * (1 / |D|) + g * f.tiny := by
    have : 1 * f.tiny ≤ g * f.tiny := mul_le_mul_of_nonneg_right g1 ht.le
    linarith
  have pe : |w * y - 1 / D * C| ≤ (g * q - 1) * (1 / |D| * M) + g * q * (1 / |D| * T + M * f.tiny + f.tiny * T) := by
    have e : w * y - 1 / D * C = (w - 1 / D) * C + 1 / D * (y - C) + (w - 1 / D) * (y - C) := by ring
    have t1 := abs_add_le ((w - 1 / D) * C + 1 / D * (y - C)) ((w - 1 / D) * (y - C))
    have t2 := abs_add_le ((w - 1 / D) * C) (1 / D * (y - C))
    rw [e]
    rw [abs_mul, abs_mul, abs_div, abs_one] at t2
    rw [abs_mul (w - 1 / D) (y - C)] at t1
    have e1 := abs_nonneg (w - 1 / D)
    have e2 := abs_nonneg (y - C)
    have s1 : |w - 1 / D| * |C| ≤ ((g - 1) * (1 / |D|) + g * f.tiny) * M := mul_le_mul we' hC (abs_nonneg _) (e1.trans we')
    have s2 : 1 / |D| * |y - C| ≤ 1 / |D| * ((q - 1) * M + q * T) := mul_le_mul_of_nonneg_left hy' i0.le
    have s3 : |w - 1 / D| * |y - C| ≤ ((g - 1) * (1 / |D|) + g * f.tiny) * ((q - 1) * M + q * T) := mul_le_mul we' hy' e2 (e1.trans we')
    linarith
  have CD : |1 / D * C| ≤ 1 / |D| * M := by
    rw [abs_mul, abs_div, abs_one]
    exact mul_le_mul_of_nonneg_left hC i0.le
  set W := 1 / |D| * T + M * f.tiny + f.tiny * T with hW
  have W0 : 0 ≤ W := by positivity
  set N := 1 / |D| * M with hN
  have N0 : 0 ≤ N := by positivity
  have pm : |w * y| ≤ g * q * (N + W) := by
    have t := abs_add_le (1 / D * C) (w * y - 1 / D * C)
    rw [add_sub_cancel] at t
    linarith
  have ee : |rd f (w * y) - C / D| ≤ ((1 + f.u) * (g * q) - 1) * N + (1 + f.u) * (g * q) * (W + f.tiny) := by
    have e := err f (w * y)
    have t := abs_add_le (rd f (w * y) - w * y) (w * y - 1 / D * C)
    rw [sub_add_sub_cancel, show 1 / D * C = C / D by ring] at t
    rw [show 1 / D * C = C / D by ring] at pe
    have t2 : f.u * |w * y| ≤ f.u * (g * q * (N + W)) := mul_le_mul_of_nonneg_left pm hu.le
    have t3 : 1 * f.tiny ≤ (1 + f.u) * (g * q) * f.tiny := mul_le_mul_of_nonneg_right (one_le_mul_of_one_le_of_one_le (by linarith) gq) ht.le
    linarith
  refine ⟨rd f (w * y), value_round f (value_mul over_ hy) ?_, ?_⟩
  · have t := abs_add_le (C / D) (rd f (w * y) - C / D)
    rw [add_sub_cancel] at t
    rw [show 1 / D * C = C / D by ring] at CD
    refine le_trans ?_ hg
    have : N + (W + f.tiny) ≤ (P + T) * (1 / |D| + f.tiny) + f.tiny := by
      have : N + (W + f.tiny) = (M + T) * (1 / |D| + f.tiny) + f.tiny := by rw [hN, hW]; ring
      rw [this]
      have := mul_le_mul_of_nonneg_right (show M + T ≤ P + T by linarith) (show 0 ≤ 1 / |D| + f.tiny by positivity)
      linarith
    have := mul_le_mul_of_nonneg_left this (show 0 ≤ (1 + f.u) * (g * q) by positivity)
    linarith
  · rw [show M / |D| = N by rw [hN]; ring, show M * f.tiny + T / |D| + T * f.tiny + f.tiny = W + f.tiny by rw [hW]; ring]
    exact ee

/-- The format has all integers up to `2 ^ p`. -/
def Counts (f : Format) : Prop := 1 ≤ f.p ∧ f.emin - f.p + 1 ≤ 0 ∧ (2 : ℚ) ^ f.p ≤ f.greatest

theorem whole_round {f : Format} (hf : Counts f) {x : Number} {n : ℤ} (h : value x = some (n : ℚ)) (hn : |n| ≤ 2 ^ f.p) : value (f.round x) = some (n : ℚ) := by
  have e : rd f n = n := by
    have := rd_exact f hf.1 n 0 hn hf.2.1
    simpa using this
  have := value_round f h (by
    rw [e]
    refine le_trans ?_ hf.2.2
    rw [← Int.cast_abs]
    exact_mod_cast hn)
  rwa [e] at this

theorem whole_product {f : Format} (hf : Counts f) {x y : Number} {a b : ℤ} (hx : value x = some (a : ℚ)) (hy : value y = some (b : ℚ)) (hn : |a * b| ≤ 2 ^ f.p)
    (k : Bool) : value (product f (x, y) k) = some ((a * b : ℤ) : ℚ) := by
  have h : value (x.mul y) = some ((a * b : ℤ) : ℚ) := by rw [value_mul hx hy]; push_cast; rfl
  unfold product
  cases k
  · exact whole_round hf h hn
  · exact h

theorem whole_add {f : Format} (hf : Counts f) {x y : Number} {a b : ℤ} (hx : value x = some (a : ℚ)) (hy : value y = some (b : ℚ)) (hn : |a + b| ≤ 2 ^ f.p) :
    value (Op.add.eval f x y) = some ((a + b : ℤ) : ℚ) :=
  whole_round hf (by rw [value_add hx hy]; push_cast; rfl) hn

theorem whole_sub {f : Format} (hf : Counts f) {x y : Number} {a b : ℤ} (hx : value x = some (a : ℚ)) (hy : value y = some (b : ℚ)) (hn : |a - b| ≤ 2 ^ f.p) :
    value (Op.sub.eval f x y) = some ((a - b : ℤ) : ℚ) :=
  whole_round hf (by
    show value (x.add y.negate) = _
    rw [value_add hx (value_negate hy)]; push_cast; rw [sub_eq_add_neg]) hn

theorem whole_difference {f : Format} (hf : Counts f) (k : Bool × Bool) {x y z w : Number} {a b c d G : ℤ} (hx : value x = some (a : ℚ)) (hy : value y = some (b : ℚ))
    (hz : value z = some (c : ℚ)) (hw : value w = some (d : ℚ)) (ha : |a| ≤ G) (hb : |b| ≤ G) (hc : |c| ≤ G) (hd : |d| ≤ G) (hg : 2 * G ^ 2 ≤ 2 ^ f.p) :
    value (difference f k (x, y) (z, w)) = some ((a * b - c * d : ℤ) : ℚ) ∧ |a * b - c * d| ≤ 2 * G ^ 2 := by
  have G0 : 0 ≤ G := (abs_nonneg a).trans ha
  have p1 : |a * b| ≤ G ^ 2 := by rw [abs_mul, sq]; exact mul_le_mul ha hb (abs_nonneg _) G0
  have p2 : |c * d| ≤ G ^ 2 := by rw [abs_mul, sq]; exact mul_le_mul hc hd (abs_nonneg _) G0
  have p3 := (abs_sub (a * b) (c * d))
  have G2 : 0 ≤ G ^ 2 := sq_nonneg G
  exact ⟨whole_sub hf (whole_product hf hx hy (by linarith) _) (whole_product hf hz hw (by linarith) _) (by linarith), by linarith⟩

theorem whole_expand3 {f : Format} (hf : Counts f) (k : Bool × Bool × Bool) {x0 x1 x2 y0 y1 y2 : Number} {a0 a1 a2 b0 b1 b2 G P : ℤ} (h0 : value x0 = some (a0 : ℚ))
    (h1 : value x1 = some (a1 : ℚ)) (h2 : value x2 = some (a2 : ℚ)) (n0 : value y0 = some (b0 : ℚ)) (n1 : value y1 = some (b1 : ℚ)) (n2 : value y2 = some (b2 : ℚ))
    (g0 : |a0| ≤ G) (g1 : |a1| ≤ G) (g2 : |a2| ≤ G) (p0 : |b0| ≤ P) (p1 : |b1| ≤ P) (p2 : |b2| ≤ P) (hg : 3 * (G * P) ≤ 2 ^ f.p) :
    value (expand3 f k (x0, y0) (x1, y1) (x2, y2)) = some ((a0 * b0 - a1 * b1 + a2 * b2 : ℤ) : ℚ) ∧ |a0 * b0 - a1 * b1 + a2 * b2| ≤ 3 * (G * P) := by
  have G0 : 0 ≤ G := (abs_nonneg a0).trans g0
  have q0 : |a0 * b0| ≤ G * P := by rw [abs_mul]; exact mul_le_mul g0 p0 (abs_nonneg _) G0
  have q1 : |a1 * b1| ≤ G * P := by rw [abs_mul]; exact mul_le_mul g1 p1 (abs_nonneg _) G0
  have q2 : |a2 * b2| ≤ G * P := by rw [abs_mul]; exact mul_le_mul g2 p2 (abs_nonneg _) G0
  have GP : 0 ≤ G * P := (abs_nonneg _).trans q0
  have r1 := abs_sub (a0 * b0) (a1 * b1)
  have r2 := abs_add_le (a0 * b0 - a1 * b1) (a2 * b2)
  exact ⟨whole_add hf (whole_sub hf (whole_product hf h0 n0 (by linarith) _) (whole_product hf h1 n1 (by linarith) _) (by linarith))
    (whole_product hf h2 n2 (by linarith) _) (by linarith), by linarith⟩

theorem whole_expand4 {f : Format} (hf : Counts f) (k : Bool × Bool × Bool × Bool) {x0 x1 x2 x3 y0 y1 y2 y3 : Number} {a0 a1 a2 a3 b0 b1 b2 b3 G P : ℤ}
    (h0 : value x0 = some (a0 : ℚ)) (h1 : value x1 = some (a1 : ℚ)) (h2 : value x2 = some (a2 : ℚ)) (h3 : value x3 = some (a3 : ℚ)) (n0 : value y0 = some (b0 : ℚ))
    (n1 : value y1 = some (b1 : ℚ)) (n2 : value y2 = some (b2 : ℚ)) (n3 : value y3 = some (b3 : ℚ)) (g0 : |a0| ≤ G) (g1 : |a1| ≤ G) (g2 : |a2| ≤ G) (g3 : |a3| ≤ G)
    (p0 : |b0| ≤ P) (p1 : |b1| ≤ P) (p2 : |b2| ≤ P) (p3 : |b3| ≤ P) (hg : 4 * (G * P) ≤ 2 ^ f.p) :
    value (expand4 f k (x0, y0) (x1, y1) (x2, y2) (x3, y3)) = some ((a0 * b0 - a1 * b1 + a2 * b2 - a3 * b3 : ℤ) : ℚ) := by
  have G0 : 0 ≤ G := (abs_nonneg a0).trans g0
  have q3 : |a3 * b3| ≤ G * P := by rw [abs_mul]; exact mul_le_mul g3 p3 (abs_nonneg _) G0
  have GP : 0 ≤ G * P := (abs_nonneg _).trans q3
  obtain ⟨v, r⟩ := whole_expand3 hf (k.1, k.2.1, k.2.2.1) h0 h1 h2 n0 n1 n2 g0 g1 g2 p0 p1 p2 (by linarith)
  have r2 := abs_sub (a0 * b0 - a1 * b1 + a2 * b2) (a3 * b3)
  exact whole_sub hf v (whole_product hf h3 n3 (by linarith) _) (by linarith)

theorem whole_two {f : Format} (hf : Counts f) (k : Bool × Bool) (x : Fin 2 → Fin 2 → Number) (X : Matrix (Fin 2) (Fin 2) ℤ) (h : ∀ i j, value (x i j) = some (X i j : ℚ)) {G : ℤ}
    (hG : ∀ i j, |X i j| ≤ G) (hg : 2 * G ^ 2 ≤ 2 ^ f.p) : value (two f k x) = some (X.det : ℚ) ∧ |X.det| ≤ 2 * G ^ 2 := by
  rw [Matrix.det_fin_two]
  exact whole_difference hf k (h _ _) (h _ _) (h _ _) (h _ _) (hG _ _) (hG _ _) (hG _ _) (hG _ _) hg

theorem whole_three {f : Format} (hf : Counts f) (k : Bool × Bool × Bool) (k0 k1 k2 : Bool × Bool) (x : Fin 3 → Fin 3 → Number) (X : Matrix (Fin 3) (Fin 3) ℤ)
    (h : ∀ i j, value (x i j) = some (X i j : ℚ)) {G : ℤ} (h1 : 1 ≤ G) (hG : ∀ i j, |X i j| ≤ G) (hg : 6 * G ^ 3 ≤ 2 ^ f.p) :
    value (three f k k0 k1 k2 x) = some (X.det : ℚ) ∧ |X.det| ≤ 6 * G ^ 3 := by
  have g2 : G ^ 2 ≤ G ^ 3 := pow_le_pow_right₀ h1 (by omega)
  have g20 : 0 ≤ G ^ 2 := sq_nonneg G
  have n := fun (j : Fin 3) (kk : Bool × Bool) => whole_two hf kk (fun a b => x (Fin.succ a) (j.succAbove b)) (X.submatrix Fin.succ j.succAbove) (fun a b => h _ _) (fun a b => hG _ _)
    (by linarith)
  have e := whole_expand3 hf k (h 0 0) (h 0 1) (h 0 2) (n 0 k0).1 (n 1 k1).1 (n 2 k2).1 (hG 0 0) (hG 0 1) (hG 0 2) (n 0 k0).2 (n 1 k1).2 (n 2 k2).2
    (by linarith [show G * (2 * G ^ 2) = 2 * G ^ 3 by ring])
  have d : X.det = X 0 0 * (X.submatrix Fin.succ (Fin.succAbove 0)).det - X 0 1 * (X.submatrix Fin.succ (Fin.succAbove 1)).det
      + X 0 2 * (X.submatrix Fin.succ (Fin.succAbove 2)).det := by
    rw [Matrix.det_succ_row_zero, Fin.sum_univ_three, Fin.val_zero, Fin.val_one, Fin.val_two]
    ring
  rw [d]
  exact ⟨e.1, e.2.trans (by linarith [show G * (2 * G ^ 2) = 2 * G ^ 3 by ring])⟩

theorem whole_four {f : Format} (hf : Counts f) (k : Bool × Bool × Bool × Bool) (c0 c1 c2 c3 x0 x1 x2 x3 : Number) (X : Matrix (Fin 4) (Fin 4) ℤ)
    (h0 : value x0 = some (X 0 0 : ℚ)) (h1 : value x1 = some (X 0 1 : ℚ)) (h2 : value x2 = some (X 0 2 : ℚ)) (h3 : value x3 = some (X 0 3 : ℚ)) {G : ℤ}
    (hG : ∀ i j, |X i j| ≤ G)
    (n0 : value c0 = some ((X.submatrix (Fin.succAbove 0) (Fin.succAbove 0)).det : ℚ) ∧ |(X.submatrix (Fin.succAbove 0) (Fin.succAbove 0)).det| ≤ 6 * G ^ 3)
    (n1 : value c1 = some ((X.submatrix (Fin.succAbove 0) (Fin.succAbove 1)).det : ℚ) ∧ |(X.submatrix (Fin.succAbove 0) (Fin.succAbove 1)).det| ≤ 6 * G ^ 3)
    (n2 : value c2 = some ((X.submatrix (Fin.succAbove 0) (Fin.succAbove 2)).det : ℚ) ∧ |(X.submatrix (Fin.succAbove 0) (Fin.succAbove 2)).det| ≤ 6 * G ^ 3)
    (n3 : value c3 = some ((X.submatrix (Fin.succAbove 0) (Fin.succAbove 3)).det : ℚ) ∧ |(X.submatrix (Fin.succAbove 0) (Fin.succAbove 3)).det| ≤ 6 * G ^ 3)
    (hg : 24 * G ^ 4 ≤ 2 ^ f.p) : value (expand4 f k (x0, c0) (x1, c1) (x2, c2) (x3, c3)) = some (X.det : ℚ) := by
  have d : X.det = X 0 0 * (X.submatrix (Fin.succAbove 0) (Fin.succAbove 0)).det
      - X 0 1 * (X.submatrix (Fin.succAbove 0) (Fin.succAbove 1)).det + X 0 2 * (X.submatrix (Fin.succAbove 0) (Fin.succAbove 2)).det
      - X 0 3 * (X.submatrix (Fin.succAbove 0) (Fin.succAbove 3)).det := by
    rw [Matrix.det_succ_row_zero, Fin.sum_univ_four, Fin.val_zero, Fin.val_one, Fin.val_two, show ((3 : Fin 4) : ℕ) = 3 from rfl,
      show (Fin.succAbove (0 : Fin 4)) = Fin.succ from Fin.succAbove_zero]
    ring
  rw [d]
  exact whole_expand4 hf k h0 h1 h2 h3 n0.1 n1.1 n2.1 n3.1 (hG _ _) (hG _ _) (hG _ _) (hG _ _) n0.2 n1.2 n2.2 n3.2
    (by linarith [show G * (6 * G ^ 3) = 6 * G ^ 4 by ring])

end Verif.Proofs.FloatDet
