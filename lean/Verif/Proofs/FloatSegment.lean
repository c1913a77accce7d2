import Verif.Spec.SegmentRounding
import Verif.Model.FloatSegment
import Verif.Proofs.FloatTriangle
import Mathlib.Analysis.InnerProductSpace.PiL2
import Mathlib.Tactic.Linarith
import Mathlib.Tactic.Positivity
import Mathlib.Tactic.FinCases
/-! # Lemmas for C185 -/
namespace Verif.Proofs.FloatSegment
open Verif.Spec.IeeeArith Verif.Spec.FloatFormat Verif.Spec.FloatSqrt Verif.Spec.SegmentRounding Verif.Spec.Representable
open Verif.Model.VectorStore hiding construct
open Verif.Model.FloatVector Verif.Model.FloatProducts
open Verif.Proofs.FloatVector Verif.Proofs.FloatProducts Verif.Proofs.FloatError Verif.Proofs.FloatPlane Verif.Proofs.FloatTriangle
open Verif.Props.FloatCross (are3)

/-! ## Rounding is monotone -/

theorem rd_mono {f : Format} (hp : 1 ≤ f.p) {a b : ℚ} (h : a ≤ b) : rd f a ≤ rd f b := by
  rcases le_total 0 a with ha | ha
  · exact Approx.rd_mono hp ha h
  · rcases le_total 0 b with hb | hb
    · have h1 := Kahan.rd_nonneg hp hb
      have h2 := Kahan.rd_nonneg hp (neg_nonneg.2 ha)
      rw [Kahan.rd_neg] at h2
      linarith
    · have := Approx.rd_mono hp (neg_nonneg.2 hb) (neg_le_neg h)
      rw [Kahan.rd_neg, Kahan.rd_neg] at this
      linarith

/-- Numbers of the format, and their doubles, are not rounded. -/
theorem rd_has {f : Format} (hp : 1 ≤ f.p) {x : Number} {X : ℚ} (h : f.Has x) (hx : value x = some X) : rd f X = X ∧ rd f (2 * X) = 2 * X := by
  cases x with
  | nan => simp [value] at hx
  | inf s => simp [value] at hx
  | fin s a =>
    obtain ⟨⟨m, k, hm, hk, rfl⟩, -⟩ := h
    simp only [value, Option.some.injEq] at hx
    have pos : rd f ((m : ℚ) * 2 ^ k) = m * 2 ^ k ∧ rd f (2 * ((m : ℚ) * 2 ^ k)) = 2 * (m * 2 ^ k) := by
      have c : |(m : ℤ)| ≤ 2 ^ f.p := by
        rw [abs_of_nonneg (by positivity)]
        exact_mod_cast hm.le
      have e1 := rd_exact f hp m k c hk
      have e2 := rd_exact f hp m (k + 1) c (by omega)
      rw [zpow_add₀ (by norm_num), zpow_one] at e2
      push_cast at e1 e2
      refine ⟨e1, ?_⟩
      rw [show 2 * ((m : ℚ) * 2 ^ k) = m * (2 ^ k * 2) by ring]
      exact e2
    subst hx
    cases s with
    | false => simpa [signed] using pos
    | true =>
      simp only [signed, if_true]
      rw [mul_neg, Kahan.rd_neg, Kahan.rd_neg, pos.1, pos.2]
      exact ⟨rfl, rfl⟩

theorem half_value {f : Format} (hf : Usual f) : value (reciprocal f (.fin false 2)) = some (1 / 2) := by
  have hp : 1 ≤ f.p := by have := hf.bits; omega
  have e : rd f (1 / 2) = 1 / 2 := by
    have := rd_exact f hp 1 (-1) (by simp [one_le_pow₀]) (by have := hf.least; have := hf.bits; omega)
    norm_num at this ⊢
    exact this
  have := value_round f (value_div (x := .fin false 1) (y := .fin false 2) (X := 1) (Y := 2) (by simp [value, signed]) (by simp [value, signed]) (by norm_num)) (by
    rw [e, abs_of_pos (by norm_num)]
    have := Verif.Proofs.FloatLength.four_le hf
    linarith)
  rw [e] at this
  exact this

/-- The mean of two numbers of the format, as `midpoint` computes it. -/
theorem mean {f : Format} (hf : Usual f) {a b : Number} {A B : ℚ} (fa : f.Has a) (fb : f.Has b) (ha : value a = some A) (hb : value b = some B)
    (hg : (1 + f.u) * |A + B| ≤ f.greatest) :
    ∃ Z, value (Op.mul.eval f (Op.add.eval f a b) (reciprocal f (.fin false 2))) = some Z ∧ min A B ≤ Z ∧ Z ≤ max A B ∧
      |Z - (A + B) / 2| ≤ ((1 + f.u) ^ 2 - 1) * (|A + B| / 2) + f.tiny := by
  have hp : 1 ≤ f.p := by have := hf.bits; omega
  have hu := u_pos f
  have hu8 := Verif.Proofs.FloatLength.u_le hf
  have ht := tiny_pos f
  have mm := mult_add f (has_mult f fa ha) (has_mult f fb hb)
  have e1 := err_mult f mm
  have m1 : |rd f (A + B)| ≤ (1 + f.u) * |A + B| := by
    have := abs_add_le (A + B) (rd f (A + B) - (A + B))
    rw [add_sub_cancel] at this
    linarith
  have v1 := value_round f (value_add ha hb) (m1.trans hg)
  have v2 := value_mul v1 (half_value hf)
  have bound : ∀ {x : Number} {X : ℚ}, f.Has x → value x = some X → |X| ≤ f.greatest := by
    intro x X fx hx
    cases x with
    | nan => simp [value] at hx
    | inf s => simp [value] at hx
    | fin s a =>
      obtain ⟨⟨m, k, -, -, h⟩, h'⟩ := fx
      have a0 : 0 ≤ a := by rw [h]; positivity
      simp only [value, Option.some.injEq] at hx
      subst hx
      cases s <;> simp [signed, abs_of_nonneg a0, h']
  have lo : min A B ≤ rd f (rd f (A + B) * (1 / 2)) := by
    have key : ∀ {x : Number} {X : ℚ}, f.Has x → value x = some X → 2 * X ≤ A + B → X ≤ rd f (rd f (A + B) * (1 / 2)) := by
      intro x X fx hx h
      have h1 := rd_mono hp h
      rw [(rd_has hp fx hx).2] at h1
      have h2 := rd_mono hp (show X ≤ rd f (A + B) * (1 / 2) by linarith)
      rwa [(rd_has hp fx hx).1] at h2
    rcases le_total A B with h | h
    · rw [min_eq_left h]; exact key fa ha (by linarith)
    · rw [min_eq_right h]; exact key fb hb (by linarith)
  have hi : rd f (rd f (A + B) * (1 / 2)) ≤ max A B := by
    have key : ∀ {x : Number} {X : ℚ}, f.Has x → value x = some X → A + B ≤ 2 * X → rd f (rd f (A + B) * (1 / 2)) ≤ X := by
      intro x X fx hx h
      have h1 := rd_mono hp h
      rw [(rd_has hp fx hx).2] at h1
      have h2 := rd_mono hp (show rd f (A + B) * (1 / 2) ≤ X by linarith)
      rwa [(rd_has hp fx hx).1] at h2
    rcases le_total A B with h | h
    · rw [max_eq_right h]; exact key fb hb (by linarith)
    · rw [max_eq_left h]; exact key fa ha (by linarith)
  have g : |rd f (rd f (A + B) * (1 / 2))| ≤ f.greatest := by
    have b1 := abs_le.1 (bound fa ha)
    have b2 := abs_le.1 (bound fb hb)
    exact abs_le.2 ⟨(le_min b1.1 b2.1).trans lo, hi.trans (max_le b1.2 b2.2)⟩
  refine ⟨_, value_round f v2 g, lo, hi, ?_⟩
  have e2 := err f (rd f (A + B) * (1 / 2))
  rw [abs_mul, abs_of_pos (show (0 : ℚ) < 1 / 2 by norm_num)] at e2
  have e : rd f (rd f (A + B) * (1 / 2)) - (A + B) / 2 = (rd f (rd f (A + B) * (1 / 2)) - rd f (A + B) * (1 / 2)) + (rd f (A + B) - (A + B)) * (1 / 2) := by ring
  rw [e]
  refine (abs_add_le _ _).trans ?_
  rw [abs_mul, abs_of_pos (show (0 : ℚ) < 1 / 2 by norm_num)]
  have := mul_le_mul_of_nonneg_left m1 hu.le
  nlinarith

/-! ## The length and the direction -/

theorem small {f : Format} (hp : 8 ≤ f.p) : f.u ≤ 1 / 256 ∧ (1 + f.u) ^ 7 ≤ 33 / 32 := by
  have hu := u_pos f
  have h1 : f.u ≤ 1 / 256 := by
    unfold Format.u
    have : (2 : ℚ) ^ 8 ≤ 2 ^ f.p := pow_le_pow_right₀ (by norm_num) hp
    rw [div_le_div_iff₀ (by positivity) (by norm_num)]
    linarith
  refine ⟨h1, ?_⟩
  calc (1 + f.u) ^ 7 ≤ (1 + 1 / 256) ^ 7 := pow_le_pow_left₀ (by linarith) (by linarith) 7
    _ ≤ 33 / 32 := by norm_num

theorem squared_le {A B : Fin 3 → ℚ} {R : ℚ} (bA : ∀ i, |A i| ≤ R) (bB : ∀ i, |B i| ≤ R) : squared A B ≤ 12 * R ^ 2 := by
  have one : ∀ i, (B i - A i) ^ 2 ≤ 4 * R ^ 2 := by
    intro i
    have h1 := abs_le.1 (bA i)
    have h2 := abs_le.1 (bB i)
    have := sq_le_sq' (a := B i - A i) (b := 2 * R) (by linarith) (by linarith)
    linarith
  unfold squared
  linarith [one 0, one 1, one 2]

theorem sq_comp_le (A B : Fin 3 → ℚ) (i : Fin 3) : (B i - A i) ^ 2 ≤ squared A B := by
  unfold squared
  have h0 := sq_nonneg (B 0 - A 0)
  have h1 := sq_nonneg (B 1 - A 1)
  have h2 := sq_nonneg (B 2 - A 2)
  fin_cases i <;> simp only [Fin.zero_eta, Fin.mk_one, Fin.reduceFinMk] <;> linarith

/-- The subtraction of numbers of the format has no error from underflow. -/
theorem sub_one {f : Format} {a b : Number} {X Y : ℚ} (fa : f.Has a) (fb : f.Has b) (ha : value a = some X) (hb : value b = some Y)
    (hg : (1 + f.u) * |X - Y| ≤ f.greatest) : Near f 1 |X - Y| 0 (Op.sub.eval f a b) (X - Y) := by
  have e := err_mult f (FloatSphere.mult_sub fa fb ha hb)
  have m : |rd f (X - Y)| ≤ (1 + f.u) * |X - Y| := by
    have := abs_add_le (X - Y) (rd f (X - Y) - (X - Y))
    rw [add_sub_cancel] at this
    linarith
  obtain ⟨z, hz, -, -, h0⟩ := (Near.exact f ha).sub (Near.exact f hb)
  have : z = X - Y := by
    rw [pow_zero] at h0
    simp only [sub_self, zero_mul, mul_zero, add_zero] at h0
    have := abs_nonpos_iff.1 h0
    linarith
  subst this
  exact ⟨_, value_round f hz (m.trans hg), le_rfl, le_rfl, by rw [pow_one]; linarith⟩

/-- What the code computes of a segment before anything else. -/
structure Facts (f : Format) (A B : Fin 3 → ℚ) (R L : ℚ) : Prop where
  pos : 0 < L
  near : |(L : ℝ) - away A B| ≤ ((1 + f.u) ^ 7 - 1) * away A B
  short : L ≤ 4 * R
  comp : ∀ i, |B i - A i| / L ≤ 9 / 8
  back : 1 / L ≤ f.greatest / 4

theorem length_facts {f : Format} (hf : Usual f) (hp : 8 ≤ f.p) (k : Store Bool 3) (hk : Contraction k) {p0 p1 : Store Number 3} {A B : Fin 3 → ℚ} {R : ℚ}
    (hA : IsVec p0 A) (hB : IsVec p1 B) (fA : ∀ x ∈ parts p0, f.Has x) (fB : ∀ x ∈ parts p1, f.Has x) (bA : ∀ i, |A i| ≤ R) (bB : ∀ i, |B i| ≤ R) (hm : Moderate f R A B) :
    ∃ v len L, binary .sub f p1 p0 = some v ∧ Model.FloatLength.length f k v = some len ∧ value len = some L ∧ Facts f A B R L := by
  have hu := u_pos f
  obtain ⟨hu1, hu7⟩ := small hp
  have R0 : 0 ≤ R := (abs_nonneg _).trans (bA 0)
  have S12 := squared_le bA bB
  have four := Verif.Proofs.FloatLength.four_le hf
  have e4 : (0 : ℚ) < 2 ^ f.emin := by positivity
  have S0 : 0 < squared A B := by
    by_contra h
    have : f.u * squared A B ≤ 0 := mul_nonpos_of_nonneg_of_nonpos hu.le (not_lt.1 h)
    linarith [hm.1]
  have eS : (List.zipWith (fun x y : ℚ => (y - x) ^ 2) [A 0, A 1, A 2] [B 0, B 1, B 2]).sum = squared A B := by
    simp [squared, add_assoc]
  have g7 : 1 ≤ (1 + f.u) ^ 7 := one_le_pow₀ (by linarith)
  have big : (1 + f.u) ^ 6 * squared A B ≤ f.greatest :=
    grow (l := 7) (by norm_num) (by linarith [mul_nonneg R0 R0]) (by positivity) hm.2
  obtain ⟨len, L, h1, h2, h3⟩ := Verif.Props.FloatLength.C150_distance_partial f hf k hk p0 p1 [A 0, A 1, A 2] [B 0, B 1, B 2] hA hB fA fB (by norm_num; linarith) (by
      calc (1 + f.u) ^ 6 ≤ (1 + f.u) ^ 7 := pow_le_pow_right₀ (by linarith) (by norm_num)
        _ < 2 := by linarith) (by rw [eS]; exact hm.1) (by rw [eS]; exact big)
  rw [eS] at h3
  unfold Verif.Model.FloatLength.distance Verif.Model.FloatLength.distanceSquared at h1
  cases hv : binary .sub f p1 p0 with
  | none => rw [hv] at h1; cases h1
  | some v =>
    rw [hv] at h1
    refine ⟨v, len, L, rfl, by unfold Verif.Model.FloatLength.length; rw [if_neg (by norm_num)]; exact h1, h2, ?_⟩
    have h3' : |(L : ℝ) - away A B| ≤ ((1 + f.u) ^ 7 - 1) * away A B := by unfold away; exact h3
    have g : ((1 + (f.u : ℝ)) ^ 7) ≤ 33 / 32 := by
      have := (Rat.cast_le (K := ℝ)).2 hu7
      push_cast at this
      exact this
    have l0 : 0 < away A B := Real.sqrt_pos.2 (by exact_mod_cast S0)
    have lsq : away A B ^ 2 = (squared A B : ℝ) := Real.sq_sqrt (by exact_mod_cast S0.le)
    set ℓ := away A B
    have h5 : |(L : ℝ) - ℓ| ≤ 1 / 32 * ℓ := h3'.trans (mul_le_mul_of_nonneg_right (by linarith) l0.le)
    have h6 := abs_le.1 h5
    have Lp : (0 : ℝ) < L := by linarith
    have Lq : 0 < L := by exact_mod_cast Lp
    have lo : 15 / 16 * squared A B ≤ L ^ 2 := by
      have : 15 / 16 * (squared A B : ℝ) ≤ (L : ℝ) ^ 2 := by
        rw [← lsq]; nlinarith
      refine (Rat.cast_le (K := ℝ)).1 ?_
      push_cast
      exact this
    have hi : L ^ 2 ≤ 9 / 8 * squared A B := by
      have : (L : ℝ) ^ 2 ≤ 9 / 8 * (squared A B : ℝ) := by
        rw [← lsq]; nlinarith
      refine (Rat.cast_le (K := ℝ)).1 ?_
      push_cast
      exact this
    refine ⟨Lq, h3', ?_, ?_, ?_⟩
    · exact abs_le_of_sq_le_sq' (by nlinarith [mul_nonneg R0 R0]) (by linarith) |>.2
    · intro i
      rw [div_le_iff₀ Lq]
      refine abs_le_of_sq_le_sq ?_ (by linarith)
      have := sq_comp_le A B i
      nlinarith
    · rcases le_total 1 L with h | h
      · have : 1 / L ≤ 1 := (div_le_one Lq).2 h
        linarith
      · have w := hf.wide
        have e5 : (2 : ℚ) ^ (-f.emin) * 2 ^ f.emin = 1 := by rw [← zpow_add₀ (by norm_num)]; simp
        have q1 : 4 * 2 ^ f.emin ≤ L ^ 2 := by nlinarith [hm.1]
        rw [div_le_iff₀ Lq]
        have q2 : 1 ≤ f.greatest * 2 ^ f.emin := by
          rw [← e5]; exact mul_le_mul_of_nonneg_right w e4.le
        have q3 : f.greatest * (4 * 2 ^ f.emin) ≤ f.greatest * L ^ 2 := mul_le_mul_of_nonneg_left q1 (by linarith)
        have q4 : f.greatest * L ^ 2 ≤ f.greatest * L := mul_le_mul_of_nonneg_left (by nlinarith) (by linarith)
        linarith

/-- The components of the direction. -/
theorem dir_one {f : Format} (hf : Usual f) (hp : 8 ≤ f.p) {a b len : Number} {X Y L R : ℚ} (fa : f.Has a) (fb : f.Has b) (ha : value a = some X) (hb : value b = some Y)
    (hL : value len = some L) (bX : |X| ≤ R) (bY : |Y| ≤ R) (L0 : 0 < L) (hc : |X - Y| / L ≤ 9 / 8) (hb' : 1 / L ≤ f.greatest / 4)
    (hg : (1 + f.u) ^ 7 * (48 * (R + 1) ^ 2) ≤ f.greatest) :
    Near f 3 (|X - Y| / L) ((2 * R + 1) * f.tiny) (Op.mul.eval f (Op.sub.eval f a b) (reciprocal f len)) ((X - Y) / L) := by
  have hu := u_pos f
  obtain ⟨hu1, hu7⟩ := small hp
  have ht := tiny_pos f
  have ht1 := tiny_le hf
  have four := Verif.Proofs.FloatLength.four_le hf
  have R0 : 0 ≤ R := (abs_nonneg _).trans bX
  have d2 : |X - Y| ≤ 2 * R := (abs_sub _ _).trans (by linarith)
  have d0 := abs_nonneg (X - Y)
  have R2 := mul_nonneg R0 R0
  have m : 0 ≤ 48 * (R + 1) ^ 2 := by positivity
  have s := sub_one fa fb ha hb (by
    have := grow (l := 7) (k := 1) (A := |X - Y|) (by norm_num) (by linarith) m hg
    rwa [pow_one] at this)
  have q := (Proofs.FloatRay.Near.quotient (Near.exact f (x := .fin false 1) (X := 1) (by simp [value, signed])) hL L0.ne').round (by
    rw [abs_one, abs_of_pos L0, zero_add, pow_one, zero_div, zero_add]
    have : (1 + f.u) * (1 / L + f.tiny) ≤ 257 / 256 * (f.greatest / 4 + 1 / 128) := mul_le_mul (by linarith) (by linarith) (by positivity) (by norm_num)
    linarith)
  rw [abs_one, abs_of_pos L0, zero_div, zero_add] at q
  have tR : R * f.tiny ≤ R * (1 / 128) := mul_le_mul_of_nonneg_left ht1 R0
  have dt : |X - Y| * f.tiny ≤ 2 * R * f.tiny := mul_le_mul_of_nonneg_right d2 ht.le
  have w := s.product q false (by
    refine grow (l := 7) (by norm_num) ?_ m hg
    rw [mul_one_div]
    linarith)
  have e : (X - Y) * (1 / L) = (X - Y) / L := by ring
  rw [e] at w
  exact w.mono (by norm_num) (by rw [mul_one_div]) (by linarith)

/-- A point of the line. -/
theorem along_one {f : Format} {a d c : Number} {A D L C T : ℚ} (j : Bool) (ha : value a = some A) (hd : Near f 3 (|D| / L) T d (D / L)) (hc : value c = some C)
    (hg : (1 + f.u) ^ 5 * (|A| + |D| / L * |C| + (|C| * T + 2 * f.tiny)) ≤ f.greatest) :
    Near f 5 (|A| + |D| / L * |C|) (|C| * T + 2 * f.tiny) (f.round (a.add (product f (d, c) j))) (A + C / L * D) := by
  have ht := tiny_pos f
  obtain ⟨m0, t0⟩ := Near.nonneg hd
  have a0 := abs_nonneg A
  have c0 := abs_nonneg C
  have mc : 0 ≤ |D| / L * |C| := by positivity
  have ct : 0 ≤ |C| * T := by positivity
  have total : 0 ≤ |A| + |D| / L * |C| + (|C| * T + 2 * f.tiny) := by positivity
  have q := hd.product (Near.exact f hc) j (grow (l := 5) (by norm_num) (by linarith) total hg)
  have w := (((Near.exact f ha).mono (k' := 3 + 0 + 1) (by norm_num) le_rfl le_rfl).add q).round (grow (l := 5) (by norm_num) (by linarith) total hg)
  have e : A + D / L * C = A + C / L * D := by ring
  rw [e] at w
  exact w.mono (by norm_num) le_rfl (by linarith)

/-! ## The closest point -/

theorem away_triangle (A B C : Fin 3 → ℚ) : away A C ≤ away A B + away B C := by
  have e : ∀ A B : Fin 3 → ℚ, away A B = dist (WithLp.toLp 2 (fun i => (A i : ℝ)) : EuclideanSpace ℝ (Fin 3)) (WithLp.toLp 2 (fun i => (B i : ℝ))) := by
    intro A B
    rw [EuclideanSpace.dist_eq]
    unfold away squared
    rw [Fin.sum_univ_three]
    push_cast
    simp only [Real.dist_eq, sq_abs]
    congr 1
    ring
  rw [e, e, e]
  exact dist_triangle _ _ _

theorem away_le {A B : Fin 3 → ℚ} {b : ℝ} (hb : 0 ≤ b) (h : (squared A B : ℝ) ≤ b ^ 2) : away A B ≤ b := by
  unfold away
  exact Real.sqrt_le_iff.2 ⟨hb, h⟩

/-- `x` put between zero and one. -/
def clip (x : ℚ) : ℚ := max 0 (min x 1)

theorem clip_mem (x : ℚ) : 0 ≤ clip x ∧ clip x ≤ 1 := ⟨le_max_left _ _, max_le (by norm_num) (min_le_right _ _)⟩

theorem clip_lipschitz (x y : ℚ) : |clip x - clip y| ≤ |x - y| := by
  unfold clip
  have h1 := abs_max_sub_max_le_max 0 (min x 1) 0 (min y 1)
  have h2 := abs_min_sub_min_le_max x 1 y 1
  simp only [sub_self, abs_zero] at h1 h2
  exact h1.trans (max_le (abs_nonneg _) (h2.trans (max_le le_rfl (abs_nonneg _))))

theorem clip_best (x s : ℚ) (h0 : 0 ≤ s) (h1 : s ≤ 1) : (clip x - x) ^ 2 ≤ (s - x) ^ 2 := by
  unfold clip
  rcases le_total x 0 with h | h
  · rw [min_eq_left (by linarith), max_eq_left h]
    nlinarith
  · rcases le_total x 1 with h' | h'
    · rw [min_eq_left h', max_eq_right h]
      nlinarith [sq_nonneg (s - x)]
    · rw [min_eq_right h', max_eq_right (by norm_num)]
      nlinarith

/-- The dot product of two differences. -/
def dots (A B Q : Fin 3 → ℚ) : ℚ := dotted (Q - A) (B - A)

theorem complete {S d s : ℚ} (h : S ≠ 0) : S * ((s - d / S) ^ 2 - (d / S) ^ 2) = S * s ^ 2 - 2 * s * d := by
  field_simp
  ring

theorem best (A B Q : Fin 3 → ℚ) (hS : 0 < squared A B) (s : ℚ) (h0 : 0 ≤ s) (h1 : s ≤ 1) :
    squared (along A B (clip (dots A B Q / squared A B))) Q ≤ squared (along A B s) Q := by
  have e : ∀ s, squared (along A B s) Q = squared A Q + squared A B * ((s - dots A B Q / squared A B) ^ 2 - (dots A B Q / squared A B) ^ 2) := by
    intro s
    rw [complete hS.ne']
    unfold squared along dots dotted
    simp only [Pi.sub_apply]
    ring
  rw [e, e]
  have := mul_le_mul_of_nonneg_left (clip_best (dots A B Q / squared A B) s h0 h1) hS.le
  linarith

theorem dots_sq (A B Q : Fin 3 → ℚ) : dots A B Q ^ 2 ≤ squared A Q * squared A B := by
  unfold dots dotted squared
  simp only [Pi.sub_apply]
  nlinarith [sq_nonneg ((Q 0 - A 0) * (B 1 - A 1) - (Q 1 - A 1) * (B 0 - A 0)), sq_nonneg ((Q 0 - A 0) * (B 2 - A 2) - (Q 2 - A 2) * (B 0 - A 0)),
    sq_nonneg ((Q 1 - A 1) * (B 2 - A 2) - (Q 2 - A 2) * (B 1 - A 1))]

theorem shift_core {l L τ d R g E : ℝ} (hl : 0 < l) (g0 : 0 ≤ g) (g1 : g ≤ 1 / 32) (R0 : 0 ≤ R) (h1 : |L - l| ≤ g * l) (hd : |d| ≤ 7 / 2 * R * l) (hτ : |τ - d / L| ≤ E) :
    |τ / L - d / l ^ 2| * l ≤ 9 / 8 * E + 9 * g * R := by
  have hgl : g * l ≤ 1 / 32 * l := mul_le_mul_of_nonneg_right g1 hl.le
  have h2 := abs_le.1 h1
  have L0 : 0 < L := by linarith
  have E0 : 0 ≤ E := (abs_nonneg _).trans hτ
  have r : l / L ≤ 32 / 31 := by rw [div_le_iff₀ L0]; linarith
  have r0 : 0 ≤ l / L := by positivity
  have e : (τ / L - d / l ^ 2) * l = (τ - d / L) * (l / L) + d / l * ((l - L) / L) * (l / L + 1) := by
    field_simp
    ring
  have a1 : |(τ - d / L) * (l / L)| ≤ E * (32 / 31) := by
    rw [abs_mul, abs_of_nonneg r0]
    exact mul_le_mul hτ r r0 E0
  have a2 : |d / l| ≤ 7 / 2 * R := by rw [abs_div, abs_of_pos hl, div_le_iff₀ hl]; exact hd
  have a3 : |(l - L) / L| ≤ g * (32 / 31) := by
    rw [abs_div, abs_of_pos L0, abs_sub_comm, div_le_iff₀ L0]
    have := mul_le_mul_of_nonneg_left (show l ≤ 32 / 31 * L by linarith) g0
    linarith
  have a4 : |l / L + 1| ≤ 63 / 31 := by rw [abs_of_nonneg (by linarith)]; linarith
  have a5 : |d / l * ((l - L) / L) * (l / L + 1)| ≤ 7 / 2 * R * (g * (32 / 31)) * (63 / 31) := by
    rw [abs_mul, abs_mul]
    exact mul_le_mul (mul_le_mul a2 a3 (abs_nonneg _) (by positivity)) a4 (abs_nonneg _) (by positivity)
  have e' : |τ / L - d / l ^ 2| * l = |(τ / L - d / l ^ 2) * l| := by rw [abs_mul, abs_of_pos hl]
  rw [e', e]
  refine (abs_add_le _ _).trans ?_
  have gR : 0 ≤ g * R := by positivity
  linarith

theorem clip_clamp {τ L : ℚ} (hL : 0 < L) : (if τ < 0 then 0 else if L < τ then L else τ) = clip (τ / L) * L := by
  unfold clip
  split
  · rename_i h
    have : τ / L ≤ 0 := (div_neg_of_neg_of_pos h hL).le
    rw [min_eq_left (by linarith), max_eq_left this, zero_mul]
  · rename_i h
    have h0 : 0 ≤ τ / L := div_nonneg (not_lt.1 h) hL.le
    split
    · rename_i h'
      rw [min_eq_right ((one_le_div hL).2 h'.le), max_eq_right (by norm_num), one_mul]
    · rename_i h'
      rw [min_eq_left ((div_le_one hL).2 (not_lt.1 h')), max_eq_right h0, div_mul_cancel₀ _ hL.ne']

theorem clamp_value {t len : Number} {τ L : ℚ} (ht : value t = some τ) (hl : value len = some L) (hL : 0 < L) :
    value (Model.CoreUtils.clamp (fun a b => Model.Kahan.less a b) t Model.FloatRay.zero len) = some (clip (τ / L) * L) := by
  have z : value Model.FloatRay.zero = some 0 := by simp [Model.FloatRay.zero, value, signed]
  have h1 := FloatBox.less_values ht z
  have h2 := FloatBox.less_values hl ht
  rw [← clip_clamp hL]
  unfold Model.CoreUtils.clamp
  by_cases a : τ < 0
  · rw [if_pos (h1.2 a), if_pos a, z]
  · rw [if_neg (fun h => a (h1.1 h)), if_neg a]
    by_cases b : L < τ
    · rw [if_pos (h2.2 b), if_pos b, hl]
    · rw [if_neg (fun h => b (h2.1 h)), if_neg b, ht]

/-- What is off by so much along each axis is off by twice as much. -/
theorem off_away {f : Format} (hp : 8 ≤ f.p) {A B X Y : Fin 3 → ℚ} {R : ℚ} (bA : ∀ i, |A i| ≤ R) (bB : ∀ i, |B i| ≤ R) (hX : ∀ i, |X i - Y i| ≤ offSlack f R A B i) :
    (∀ i, |X i - Y i| ≤ 3 * (((1 + f.u) ^ 7 - 1) * R) + 9 * ((R + 1) ^ 2 * f.tiny)) ∧
    away X Y ≤ ((6 * (((1 + f.u) ^ 7 - 1) * R) + 18 * ((R + 1) ^ 2 * f.tiny) : ℚ) : ℝ) := by
  have hu := u_pos f
  obtain ⟨hu1, hu7⟩ := small hp
  have ht := tiny_pos f
  have R0 : 0 ≤ R := (abs_nonneg _).trans (bA 0)
  set g := (1 + f.u) ^ 7 - 1 with hg
  have g0 : 0 ≤ g := by have : 1 ≤ (1 + f.u) ^ 7 := one_le_pow₀ (by linarith)
                        linarith
  have p7 : (1 + f.u) ^ 7 = 1 + g := by rw [hg]; ring
  have p5 : (1 + f.u) ^ 5 ≤ 1 + g := by rw [← p7]; exact pow_le_pow_right₀ (by linarith) (by norm_num)
  have p5' : 1 ≤ (1 + f.u) ^ 5 := one_le_pow₀ (by linarith)
  have V0 : 0 ≤ (R + 1) ^ 2 * f.tiny := by positivity
  have gR : 0 ≤ g * R := by positivity
  have o : ∀ i, |X i - Y i| ≤ 3 * (g * R) + 9 * ((R + 1) ^ 2 * f.tiny) := by
    intro i
    refine (hX i).trans ?_
    unfold offSlack
    have d2 : |B i - A i| ≤ 2 * R := (abs_sub _ _).trans (by linarith [bA i, bB i])
    have m0 : 0 ≤ |A i| + |B i - A i| := by positivity
    have q1 : ((1 + f.u) ^ 5 - 1) * (|A i| + |B i - A i|) ≤ g * (3 * R) := mul_le_mul (by linarith) (by linarith [bA i]) m0 g0
    have q2 : (1 + f.u) ^ 5 * (8 * (R + 1) ^ 2 * f.tiny) ≤ 33 / 32 * (8 * (R + 1) ^ 2 * f.tiny) := mul_le_mul_of_nonneg_right (by linarith) (by positivity)
    linarith
  refine ⟨o, away_le (by exact_mod_cast (by positivity)) ?_⟩
  have : squared X Y ≤ (6 * (g * R) + 18 * ((R + 1) ^ 2 * f.tiny)) ^ 2 := by
    have one : ∀ i, (Y i - X i) ^ 2 ≤ (3 * (g * R) + 9 * ((R + 1) ^ 2 * f.tiny)) ^ 2 := by
      intro i
      rw [← sq_abs (Y i - X i), abs_sub_comm]
      exact pow_le_pow_left₀ (abs_nonneg _) (o i) 2
    unfold squared
    have w : 0 ≤ (3 * (g * R) + 9 * ((R + 1) ^ 2 * f.tiny)) ^ 2 := sq_nonneg _
    have e : (6 * (g * R) + 18 * ((R + 1) ^ 2 * f.tiny)) ^ 2 = 4 * (3 * (g * R) + 9 * ((R + 1) ^ 2 * f.tiny)) ^ 2 := by ring
    rw [e]
    linarith [one 0, one 1, one 2]
  exact_mod_cast this

/-- How far apart the point that is found and the closest point of the segment are. -/
theorem apart {f : Format} (hp : 8 ≤ f.p) {A B Q X : Fin 3 → ℚ} {R L τ : ℚ} (bA : ∀ i, |A i| ≤ R) (bB : ∀ i, |B i| ≤ R) (bQ : ∀ i, |Q i| ≤ R) (hS : 0 < squared A B)
    (hF : Facts f A B R L) (hτ : |τ - dots A B Q / L| ≤ ((1 + f.u) ^ 7 - 1) * (27 / 4 * R) + (1 + f.u) ^ 7 * (12 * (R + 1) ^ 2 * f.tiny))
    (hX : ∀ i, |X i - along A B (clip (τ / L)) i| ≤ offSlack f R A B i) :
    away X (along A B (clip (dots A B Q / squared A B))) ≤ farSlack f R := by
  have hu := u_pos f
  obtain ⟨hu1, hu7⟩ := small hp
  have ht := tiny_pos f
  have R0 : 0 ≤ R := (abs_nonneg _).trans (bA 0)
  set g := (1 + f.u) ^ 7 - 1 with hg
  have g0 : 0 ≤ g := by have : 1 ≤ (1 + f.u) ^ 7 := one_le_pow₀ (by linarith)
                        linarith
  have g1 : g ≤ 1 / 32 := by linarith
  have p7 : (1 + f.u) ^ 7 = 1 + g := by rw [hg]; ring
  have p5 : (1 + f.u) ^ 5 ≤ 1 + g := by rw [← p7]; exact pow_le_pow_right₀ (by linarith) (by norm_num)
  have p5' : 1 ≤ (1 + f.u) ^ 5 := one_le_pow₀ (by linarith)
  have V0 : 0 ≤ (R + 1) ^ 2 * f.tiny := by positivity
  have gR : 0 ≤ g * R := by positivity
  have part1 := (off_away hp bA bB hX).2
  rw [← hg] at part1
  -- the second part
  have l0 : 0 < away A B := Real.sqrt_pos.2 (by exact_mod_cast hS)
  have lsq : away A B ^ 2 = (squared A B : ℝ) := Real.sq_sqrt (by exact_mod_cast hS.le)
  have hn : |(L : ℝ) - away A B| ≤ (g : ℝ) * away A B := by
    have := hF.near
    rw [hg]
    push_cast
    exact this
  have hd : |((dots A B Q : ℚ) : ℝ)| ≤ 7 / 2 * (R : ℝ) * away A B := by
    refine abs_le_of_sq_le_sq ?_ (by have : (0 : ℝ) ≤ R := by exact_mod_cast R0
                                     positivity)
    have h1 := dots_sq A B Q
    have h2 : squared A Q * squared A B ≤ 12 * R ^ 2 * squared A B := mul_le_mul_of_nonneg_right (squared_le bA bQ) hS.le
    have h3 : ((dots A B Q ^ 2 : ℚ) : ℝ) ≤ ((12 * R ^ 2 * squared A B : ℚ) : ℝ) := Rat.cast_le.2 (h1.trans h2)
    push_cast at h3
    have h4 : (0 : ℝ) ≤ (R : ℝ) ^ 2 * away A B ^ 2 := by positivity
    rw [← lsq] at h3
    linarith
  have hτ' : |(τ : ℝ) - (dots A B Q : ℚ) / L| ≤ ((g * (27 / 4 * R) + (1 + g) * (12 * (R + 1) ^ 2 * f.tiny) : ℚ) : ℝ) := by
    have : ((|τ - dots A B Q / L| : ℚ) : ℝ) ≤ _ := Rat.cast_le.2 hτ
    rw [p7] at this
    push_cast at this ⊢
    exact this
  have s := shift_core l0 (by exact_mod_cast g0) (by have := (Rat.cast_le (K := ℝ)).2 g1
                                                     push_cast at this
                                                     exact this) (by exact_mod_cast R0) hn hd hτ'
  rw [lsq] at s
  have part2 : away (along A B (clip (τ / L))) (along A B (clip (dots A B Q / squared A B))) ≤ |(τ : ℝ) / L - (dots A B Q : ℚ) / (squared A B : ℚ)| * away A B := by
    refine away_le (by positivity) ?_
    have e : squared (along A B (clip (τ / L))) (along A B (clip (dots A B Q / squared A B))) = (clip (τ / L) - clip (dots A B Q / squared A B)) ^ 2 * squared A B := by
      unfold squared along
      ring
    have c := clip_lipschitz (τ / L) (dots A B Q / squared A B)
    have c2 : (clip (τ / L) - clip (dots A B Q / squared A B)) ^ 2 ≤ (τ / L - dots A B Q / squared A B) ^ 2 := sq_le_sq.2 c
    have c3 := mul_le_mul_of_nonneg_right c2 hS.le
    rw [← e] at c3
    have c4 := (Rat.cast_le (K := ℝ)).2 c3
    push_cast at c4
    rw [mul_pow, sq_abs, lsq]
    exact c4
  refine (away_triangle _ _ _).trans ((add_le_add part1 (part2.trans s)).trans ?_)
  have gVR : g * ((R + 1) ^ 2 * f.tiny) ≤ 1 / 32 * ((R + 1) ^ 2 * f.tiny) := mul_le_mul_of_nonneg_right g1 V0
  have final : 6 * (g * R) + 18 * ((R + 1) ^ 2 * f.tiny) + (9 / 8 * (g * (27 / 4 * R) + (1 + g) * (12 * (R + 1) ^ 2 * f.tiny)) + 9 * g * R) ≤ farSlack f R := by
    unfold farSlack
    rw [← hg]
    linarith
  have := (Rat.cast_le (K := ℝ)).2 final
  push_cast at this ⊢
  linarith

theorem tiny_product {f : Format} (hf : Usual f) (hp : 8 ≤ f.p) {R : ℚ} (R0 : 0 ≤ R) (h : 48 * (R + 1) ^ 2 ≤ f.greatest) : (R + 1) * f.tiny ≤ 1 / 256 := by
  have hu := u_pos f
  obtain ⟨hu1, hu7⟩ := small hp
  have e4 : (0 : ℚ) < 2 ^ f.emin := by positivity
  have e5 : (2 : ℚ) ^ (-2 * f.emin) * (2 ^ f.emin) ^ 2 = 1 := by
    rw [← zpow_natCast, ← zpow_mul, ← zpow_add₀ (by norm_num)]
    have : -2 * f.emin + f.emin * ((2 : ℕ) : ℤ) = 0 := by push_cast; ring
    rw [this, zpow_zero]
  have h1 : ((R + 1) * 2 ^ f.emin) ^ 2 ≤ 1 := by
    have h2 : 4 * (48 * (R + 1) ^ 2) * (2 ^ f.emin) ^ 2 ≤ 2 ^ (-2 * f.emin) * (2 ^ f.emin) ^ 2 := mul_le_mul_of_nonneg_right (by linarith [hf.narrow]) (by positivity)
    rw [e5] at h2
    have h3 : 0 ≤ (R + 1) ^ 2 * (2 ^ f.emin) ^ 2 := by positivity
    rw [mul_pow]
    linarith
  have h4 : (R + 1) * 2 ^ f.emin ≤ 1 := by
    have := abs_le_of_sq_le_sq' (a := (R + 1) * 2 ^ f.emin) (b := 1) (by linarith) (by norm_num)
    exact this.2
  rw [Verif.Proofs.FloatLength.tiny_eq]
  calc (R + 1) * (f.u * 2 ^ f.emin) = f.u * ((R + 1) * 2 ^ f.emin) := by ring
    _ ≤ 1 / 256 * 1 := mul_le_mul hu1 h4 (by positivity) (by norm_num)
    _ = 1 / 256 := by norm_num

/-- The squares of the two differences of two numbers are the same. -/
theorem square_swap (f : Format) (a b : Number) (c : Bool) :
    product f (Op.sub.eval f a b, Op.sub.eval f a b) c = product f (Op.sub.eval f b a, Op.sub.eval f b a) c := by
  have same : ∀ {x y : Number}, x = y ∨ x = y.negate → (f.round x).mul (f.round x) = (f.round y).mul (f.round y) := by
    rintro x y (rfl | rfl)
    · rfl
    · cases y with
      | nan => rfl
      | inf s => simp [Format.round, Number.round, Number.negate, Number.mul]
      | fin s q =>
        simp only [Format.round, Number.round, Number.negate]
        split <;> simp [Number.mul]
  have swap : (f.round (a.sub b)).mul (f.round (a.sub b)) = (f.round (b.sub a)).mul (f.round (b.sub a)) := by
    cases a with
    | nan => cases b <;> rfl
    | inf s =>
      cases b with
      | nan => rfl
      | inf t => refine same ?_; cases s <;> cases t <;> simp [Number.sub, Number.add, Number.negate]
      | fin t q => refine same ?_; cases s <;> cases t <;> simp [Number.sub, Number.add, Number.negate]
    | fin s q =>
      cases b with
      | nan => rfl
      | inf t => refine same ?_; cases s <;> cases t <;> simp [Number.sub, Number.add, Number.negate]
      | fin t r =>
        have e : signed s q + signed (!t) r = -(signed t r + signed (!s) q) := by cases s <;> cases t <;> simp [signed] <;> ring
        by_cases h : signed t r + signed (!s) q = 0
        · have h' : signed s q + signed (!t) r = 0 := by rw [e, h, neg_zero]
          simp only [Number.sub, Number.negate, Number.add, h, h', if_true]
          exact same (by cases s <;> cases t <;> simp [Number.negate])
        · have h' : signed s q + signed (!t) r ≠ 0 := by rw [e]; exact neg_ne_zero.2 h
          refine same (Or.inr ?_)
          simp only [Number.sub, Number.negate, Number.add, h, h', if_false]
          rw [e, abs_neg]
          congr 1
          generalize signed t r + signed (!s) q = w at h
          rcases lt_or_gt_of_ne h with h1 | h1
          · rw [decide_eq_false (by linarith), decide_eq_true h1, Bool.not_true]
          · rw [decide_eq_true (by linarith), decide_eq_false (by linarith), Bool.not_false]
  cases c with
  | true => exact swap
  | false =>
    have : f.round _ = f.round _ := congrArg f.round swap
    exact this

theorem away_comm (A B : Fin 3 → ℚ) : away A B = away B A := by
  unfold away squared
  congr 2
  ring

/-- The squared distance of points of the format. -/
theorem dist_near {f : Format} (hp : 8 ≤ f.p) (k : Store Bool 3) (hk : Contraction k) {x q : Store Number 3} {X Q : Fin 3 → ℚ} (hX : IsVec x X) (hQ : IsVec q Q)
    (fX : ∀ a ∈ parts x, f.Has a) (fQ : ∀ a ∈ parts q, f.Has a) (hg : (1 + f.u) ^ 5 * squared Q X + 4 * f.tiny ≤ f.greatest) (hg' : ∀ i, (1 + f.u) * |X i - Q i| ≤ f.greatest) :
    ∃ r S, Model.FloatLength.distanceSquared f k q x = some r ∧ value r = some S ∧ S ≤ (1 + 8 * f.u) * squared Q X + 4 * f.tiny ∧ squared Q X ≤ (1 + 8 * f.u) * (S + 4 * f.tiny) := by
  have hu := u_pos f
  have ht := tiny_pos f
  obtain ⟨hu1, hu7⟩ := small hp
  obtain ⟨x1, x2, x3, rfl, hx1, hx2, hx3⟩ := are3 hX
  obtain ⟨q1, q2, q3, rfl, hq1, hq2, hq3⟩ := are3 hQ
  have one : ∀ (i : Fin 3) {a b : Number}, f.Has a → f.Has b → value a = some (X i) → value b = some (Q i) →
      ∃ z, value (Op.sub.eval f a b) = some z ∧ (1 - f.u) ^ 2 * (X i - Q i) ^ 2 ≤ z ^ 2 ∧ z ^ 2 ≤ (1 + f.u) ^ 2 * (X i - Q i) ^ 2 := by
    intro i a b fa fb ha hb
    obtain ⟨z, z1, -, -, z2⟩ := sub_one fa fb ha hb (hg' i)
    rw [pow_one, mul_zero, add_zero, add_sub_cancel_left] at z2
    refine ⟨z, z1, ?_, ?_⟩
    · rw [← mul_pow, ← sq_abs z, ← sq_abs ((1 - f.u) * (X i - Q i)), abs_mul, abs_of_nonneg (show 0 ≤ 1 - f.u by linarith)]
      refine pow_le_pow_left₀ (mul_nonneg (by linarith) (abs_nonneg _)) ?_ 2
      have := abs_sub_abs_le_abs_sub (X i - Q i) z
      rw [abs_sub_comm (X i - Q i) z] at this
      linarith
    · rw [← mul_pow, ← sq_abs z, ← sq_abs ((1 + f.u) * (X i - Q i)), abs_mul, abs_of_nonneg (show 0 ≤ 1 + f.u by linarith)]
      refine pow_le_pow_left₀ (abs_nonneg _) ?_ 2
      have := abs_sub_abs_le_abs_sub z (X i - Q i)
      linarith
  obtain ⟨z1, a1, b1, c1⟩ := one 0 (fX x1 (by simp [parts])) (fQ q1 (by simp [parts])) hx1 hq1
  obtain ⟨z2, a2, b2, c2⟩ := one 1 (fX x2 (by simp [parts])) (fQ q2 (by simp [parts])) hx2 hq2
  obtain ⟨z3, a3, b3, c3⟩ := one 2 (fX x3 (by simp [parts])) (fQ q3 (by simp [parts])) hx3 hq3
  have eW : (([z1, z2, z3] : List ℚ).map (· ^ 2)).sum = z1 ^ 2 + z2 ^ 2 + z3 ^ 2 := by simp [add_assoc]
  have lo : (1 - f.u) ^ 2 * squared Q X ≤ z1 ^ 2 + z2 ^ 2 + z3 ^ 2 := by unfold squared; linarith
  have hi : z1 ^ 2 + z2 ^ 2 + z3 ^ 2 ≤ (1 + f.u) ^ 2 * squared Q X := by unfold squared; linarith
  have Z0 : 0 ≤ squared Q X := by unfold squared; positivity
  have W0 : 0 ≤ z1 ^ 2 + z2 ^ 2 + z3 ^ 2 := by positivity
  set W := z1 ^ 2 + z2 ^ 2 + z3 ^ 2
  set Z := squared Q X
  have p3 : 1 ≤ (1 + f.u) ^ 3 := one_le_pow₀ (by linarith)
  have e5 : (1 + f.u) ^ 3 * ((1 + f.u) ^ 2 * Z) = (1 + f.u) ^ 5 * Z := by ring
  have up : (1 + f.u) ^ 3 * W ≤ (1 + f.u) ^ 5 * Z := by rw [← e5]; exact mul_le_mul_of_nonneg_left hi (by positivity)
  have uu : f.u ^ 2 ≤ 1 / 256 * f.u := by rw [sq]; exact mul_le_mul_of_nonneg_right hu1 hu.le
  have uuu : f.u ^ 3 ≤ 1 / 256 * f.u ^ 2 := by rw [pow_succ']; exact mul_le_mul_of_nonneg_right hu1 (by positivity)
  have u2 : 0 ≤ f.u ^ 2 := by positivity
  have u3 : 0 ≤ f.u ^ 3 := by positivity
  have t3 : 3 * f.tiny * (1 + f.u) ^ 2 ≤ 4 * f.tiny := by
    have : (1 + f.u) ^ 2 ≤ 4 / 3 := by
      have : (1 + f.u) ^ 2 = 1 + 2 * f.u + f.u ^ 2 := by ring
      linarith
    have := mul_le_mul_of_nonneg_left this ht.le
    linarith
  obtain ⟨r, S, r1, r2, r3⟩ := Verif.Props.FloatVector.C148_length_squared f k hk (.three (Op.sub.eval f x1 q1) (Op.sub.eval f x2 q2) (Op.sub.eval f x3 q3)) [z1, z2, z3]
    (by simp [parts, a1, a2, a3]) (by rw [eW]; norm_num; linarith)
  rw [eW] at r3
  norm_num at r3
  have r4 := abs_le.1 r3
  refine ⟨r, S, r1, r2, ?_, ?_⟩
  · have b5 : (1 + f.u) ^ 5 ≤ 1 + 8 * f.u := by
      have e : (1 + f.u) ^ 5 = 1 + 5 * f.u + 10 * f.u ^ 2 + 10 * f.u ^ 3 + 5 * (f.u * f.u ^ 3) + f.u ^ 2 * f.u ^ 3 := by ring
      have v1 : f.u * f.u ^ 3 ≤ 1 / 256 * f.u ^ 3 := mul_le_mul_of_nonneg_right hu1 u3
      have v2 : f.u ^ 2 * f.u ^ 3 ≤ 1 * f.u ^ 3 := mul_le_mul_of_nonneg_right (by linarith) u3
      linarith
    have := mul_le_mul_of_nonneg_right b5 Z0
    linarith
  · have w1 : (2 - (1 + f.u) ^ 3) * W ≤ S + 4 * f.tiny := by linarith
    have e3 : (1 + f.u) ^ 3 = 1 + 3 * f.u + 3 * f.u ^ 2 + f.u ^ 3 := by ring
    have c2 : 0 ≤ 2 - (1 + f.u) ^ 3 := by rw [e3]; linarith
    have w2 : (2 - (1 + f.u) ^ 3) * ((1 - f.u) ^ 2 * Z) ≤ S + 4 * f.tiny := (mul_le_mul_of_nonneg_left lo c2).trans w1
    have w3 := mul_le_mul_of_nonneg_left w2 (show 0 ≤ 1 + 8 * f.u by linarith)
    have c3 : 1 - 13 / 4 * f.u ≤ 2 - (1 + f.u) ^ 3 := by rw [e3]; linarith
    have c4 : 1 - 2 * f.u ≤ (1 - f.u) ^ 2 := by nlinarith
    have c5 : (1 - 13 / 4 * f.u) * (1 - 2 * f.u) ≤ (2 - (1 + f.u) ^ 3) * (1 - f.u) ^ 2 := mul_le_mul c3 c4 (by linarith) c2
    have c6 : 1 ≤ (1 + 8 * f.u) * ((1 - 13 / 4 * f.u) * (1 - 2 * f.u)) := by
      have e : (1 + 8 * f.u) * ((1 - 13 / 4 * f.u) * (1 - 2 * f.u)) = 1 + 11 / 4 * f.u - 71 / 2 * f.u ^ 2 + 52 * f.u ^ 3 := by ring
      rw [e]; linarith
    have c7 : 1 ≤ (1 + 8 * f.u) * ((2 - (1 + f.u) ^ 3) * (1 - f.u) ^ 2) := c6.trans (mul_le_mul_of_nonneg_left c5 (by linarith))
    have := mul_le_mul_of_nonneg_right c7 Z0
    linarith

end Verif.Proofs.FloatSegment
