import Verif.Proofs.PackedFloat
import Verif.Props.PackedUnit
/-!
# C157: unpacking packed unit vectors, with all roundings

`n` is the size of the integer type in bits, `f` the format of the components of the result; `p` is the precision of the components of the
vector that is packed. `kx`, `ky`, `c` and `c'` are the contractions that the compiler has chosen.
-/
namespace Verif.Props.PackedFloat
open Verif.Spec.IeeeArith Verif.Spec.FloatFormat Verif.Spec.Parts Verif.Model.VectorStore Verif.Model.FloatVector Verif.Proofs.FloatVector Verif.Proofs.FloatError
open Verif.Model.PackedFloat Verif.Proofs.PackedFloat Verif.Props.FloatLength

/-- The integer types. -/
def IsSize (n : ℕ) : Prop := n = 8 ∨ n = 16 ∨ n = 32 ∨ n = 64

theorem range3 {n : ℕ} (hn : IsSize n) : 1 ≤ Model.PackedUnit.xRange n 3 ∧ Model.PackedUnit.xRange n 3 ≤ 2 ^ 63 := by
  rcases hn with rfl | rfl | rfl | rfl <;> decide

theorem range2 {n : ℕ} (hn : IsSize n) : 1 ≤ Model.PackedUnit.xRange n 2 ∧ Model.PackedUnit.xRange n 2 ≤ 2 ^ 63 := by
  rcases hn with rfl | rfl | rfl | rfl <;> decide

/-- The coordinates that are read are on the face of the octahedron. -/
theorem decode_le {n : ℕ} (hn : IsSize n) (b : ℕ) : (Model.PackedUnit.decode3 n b).1 + (Model.PackedUnit.decode3 n b).2 ≤ Model.PackedUnit.xRange n 3 := by
  have hx : (b &&& Model.PackedUnit.xMask n 3) >>> Model.PackedUnit.yBits n 3 ≤ Model.PackedUnit.xRange n 3 := by
    unfold Model.PackedUnit.xMask
    rw [Nat.shiftRight_and_distrib]
    refine Nat.and_le_right.trans (le_of_eq ?_)
    rw [Nat.shiftLeft_shiftRight]
  have hy : b &&& Model.PackedUnit.yMask n 3 ≤ Model.PackedUnit.xRange n 3 := by
    refine Nat.and_le_right.trans ?_
    rcases hn with rfl | rfl | rfl | rfl <;> decide
  unfold Model.PackedUnit.decode3
  dsimp only
  split
  · dsimp only; omega
  · dsimp only; omega

theorem sign_abs (n i b : ℕ) (x : ℚ) : |Model.PackedUnit.sign n i b * x| = |x| := by
  unfold Model.PackedUnit.sign; split <;> simp

/-- The bounds of `C150_normalize_partial` for two and three dimensions. -/
theorem good {f : Format} (hf : f = binary32 ∨ f = binary64) : Good f := by
  rcases hf with rfl | rfl
  · exact good32
  · exact good64

theorem bounds {f : Format} (hf : f = binary32 ∨ f = binary64) {n : ℕ} (hn : n = 2 ∨ n = 3) : (n : ℚ) * f.u ≤ 1 ∧ (1 + f.u) ^ (n + 1) ≤ 3 / 2 ∧
    1 - 10 * f.u ≤ (1 - f.u) ^ 2 / (1 + f.u) ^ (n + 3) ∧ (1 + f.u) ^ 2 / ((1 - f.u) ^ 2 * (2 - (1 + f.u) ^ (n + 1))) ≤ 1 + 10 * f.u := by
  rcases hf with rfl | rfl <;> rcases hn with rfl | rfl <;> decide +kernel

/-- What is needed of the sum of squares of numbers with small errors. -/
theorem size {f : Format} (hf : Good f) {a b c A B C : ℚ} (hs : |a - A| + |b - B| + |c - C| ≤ 34 * f.u) (h1 : |A| + |B| + |C| = 1) :
    2 ^ f.emin ≤ f.u * (a ^ 2 + b ^ 2 + c ^ 2) ∧ 3 / 2 * (a ^ 2 + b ^ 2 + c ^ 2) ≤ f.greatest := by
  have hu := u_pos f
  have hu20 := hf.small
  have t : ∀ x X : ℚ, |X| ≤ |x| + |x - X| ∧ |x| ≤ |X| + |x - X| := by
    intro x X
    have h1 := abs_add_le x (X - x)
    have h2 := abs_add_le X (x - X)
    rw [add_sub_cancel] at h1 h2
    rw [abs_sub_comm X x] at h1
    exact ⟨h1, h2⟩
  have ta := t a A; have tb := t b B; have tc := t c C
  have lo : 1 - 34 * f.u ≤ |a| + |b| + |c| := by linarith
  have hi : |a| + |b| + |c| ≤ 1 + 34 * f.u := by linarith
  have e : a ^ 2 + b ^ 2 + c ^ 2 = |a| ^ 2 + |b| ^ 2 + |c| ^ 2 := by simp only [sq_abs]
  rw [e]
  have ha := abs_nonneg a; have hb := abs_nonneg b; have hc := abs_nonneg c
  generalize |a| = a at *
  generalize |b| = b at *
  generalize |c| = c at *
  have q : 1 / 16 ≤ a ^ 2 + b ^ 2 + c ^ 2 := by
    have : 1 / 2 ≤ a + b + c := by norm_num at *; linarith
    nlinarith [sq_nonneg (a - b), sq_nonneg (b - c), sq_nonneg (a - c)]
  have q2 : a ^ 2 + b ^ 2 + c ^ 2 ≤ 4 := by
    have : a + b + c ≤ 2 := by norm_num at *; linarith
    nlinarith [mul_nonneg ha hb, mul_nonneg ha hc, mul_nonneg hb hc]
  constructor
  · have := mul_le_mul_of_nonneg_left q hu.le
    have := hf.low
    linarith
  · have := hf.wide
    norm_num at *
    linarith

/-- Whatever bits are unpacked in three dimensions, the result is a unit vector: each component differs from that of the unit vector of the exact direction that
the bits stand for by at most 104 units of round-off, and the result is recognized as normalized. -/
theorem C157_unpack3 (f : Format) (hf : f = binary32 ∨ f = binary64) (n : ℕ) (hn : IsSize n) (kx ky : Bool) (c c' : Store Bool 3) (hc : Contraction c)
    (hc' : Contraction c') (b : ℕ) :
    ∃ x y z X Y Z, unpack3 f n kx ky c b = some (.three x y z) ∧ value x = some X ∧ value y = some Y ∧ value z = some Z ∧
      Model.FloatLength.normalized f c' (.three x y z) = some true ∧
      let d := Model.PackedUnit.unpack3 n b
      let L := √(d.1 ^ 2 + d.2.1 ^ 2 + d.2.2 ^ 2 : ℚ)
      |(X : ℝ) - d.1 / L| ≤ 104 * f.u ∧ |(Y : ℝ) - d.2.1 / L| ≤ 104 * f.u ∧ |(Z : ℝ) - d.2.2 / L| ≤ 104 * f.u := by
  have G := good hf
  have hu := u_pos f
  obtain ⟨r1, r63⟩ := range3 hn
  have dl := decode_le hn b
  have R0 : (0 : ℚ) < Model.PackedUnit.xRange n 3 := by exact_mod_cast r1
  unfold unpack3 Model.PackedUnit.unpack3
  dsimp only
  set ix := (Model.PackedUnit.decode3 n b).1
  set iy := (Model.PackedUnit.decode3 n b).2
  have hx0 : 0 ≤ (ix : ℚ) / Model.PackedUnit.xRange n 3 := by positivity
  have hy0 : 0 ≤ (iy : ℚ) / Model.PackedUnit.xRange n 3 := by positivity
  have hxy : (ix : ℚ) / Model.PackedUnit.xRange n 3 + (iy : ℚ) / Model.PackedUnit.xRange n 3 ≤ 1 := by
    rw [← add_div, div_le_one R0]; exact_mod_cast dl
  have nx := coordinate_near G r1 r63 (show ix ≤ _ by omega)
  have ny := coordinate_near G r1 r63 (show iy ≤ _ by omega)
  set X0 := (ix : ℚ) / Model.PackedUnit.xRange n 3
  set Y0 := (iy : ℚ) / Model.PackedUnit.xRange n 3
  have one : Near f 0 1 (((0 : ℕ) : ℚ) * f.tiny) (.fin false 1) 1 := by
    have := Near.exact f (x := .fin false 1) (X := 1) (by simp [value, signed])
    simpa using this
  have z1 := rest_near G one (nx kx) (by norm_num) (by norm_num) (by linarith)
  have z2 := rest_near G z1 (ny ky) (by norm_num) (by norm_num) (by linarith)
  have s1 := sign_near (n := n) (i := 0) (b := b) (m := 1) G (by simpa using nx false) (by norm_num) (by norm_num) (by linarith)
  have s2 := sign_near (n := n) (i := 1) (b := b) (m := 1) G (by simpa using ny false) (by norm_num) (by norm_num) (by linarith)
  have s3 := sign_near (n := n) (i := 2) (b := b) G z2 (by norm_num) (by norm_num) (by linarith)
  obtain ⟨vx, x1, x2⟩ := Near.value G s1 (by norm_num) (by norm_num) (j := 1) (by push_cast; linarith) (by norm_num)
  obtain ⟨vy, y1, y2⟩ := Near.value G s2 (by norm_num) (by norm_num) (j := 1) (by push_cast; linarith) (by norm_num)
  obtain ⟨vz, w1, w2⟩ := Near.value G s3 (by norm_num) (by norm_num) (j := 2) (by push_cast; linarith) (by norm_num)
  norm_num at x2 y2 w2
  set A := Model.PackedUnit.sign n 0 b * X0
  set B := Model.PackedUnit.sign n 1 b * Y0
  set C := Model.PackedUnit.sign n 2 b * (1 - X0 - Y0)
  have hABC : |A| + |B| + |C| = 1 := by
    rw [sign_abs, sign_abs, sign_abs, abs_of_nonneg hx0, abs_of_nonneg hy0, abs_of_nonneg (by linarith)]; ring
  have hs : |vx - A| + |vy - B| + |vz - C| ≤ 34 * f.u := by linarith
  obtain ⟨k1, k2⟩ := size G hs hABC
  obtain ⟨g1, g2, g3, g4⟩ := bounds hf (n := 3) (.inr rfl)
  have hv : (parts (.three (Op.mul.eval f (signNumber n 0 b) (product f (cast f ix, rangeDiv f n 3) false))
      (Op.mul.eval f (signNumber n 1 b) (product f (cast f iy, rangeDiv f n 3) false))
      (Op.mul.eval f (signNumber n 2 b) (Op.sub.eval f (Op.sub.eval f (.fin false 1) (product f (cast f ix, rangeDiv f n 3) kx))
        (product f (cast f iy, rangeDiv f n 3) ky))))).map value = [vx, vy, vz].map some := by
    simp only [parts, List.map_cons, List.map_nil, x1, y1, w1]
  have sq : ([vx, vy, vz].map (· ^ 2)).sum = vx ^ 2 + vy ^ 2 + vz ^ 2 := by simp; ring
  have hlo : 2 ^ f.emin ≤ f.u * ([vx, vy, vz].map (· ^ 2)).sum := by rw [sq]; exact k1
  have hg : (1 + f.u) ^ (3 + 1) * ([vx, vy, vz].map (· ^ 2)).sum ≤ f.greatest := by
    rw [sq]; exact (mul_le_mul_of_nonneg_right g2 (by positivity)).trans k2
  obtain ⟨out, w, o1, o2, o3, o4, o5⟩ := C150_normalize_partial f G.usual (by norm_num) c hc _ [vx, vy, vz] hv g1 g2 hlo hg
  obtain ⟨out', p1, p2⟩ := C150_normalized (by norm_num) (by norm_num) f hf c c' hc hc' _ [vx, vy, vz] hv hlo hg
  obtain rfl : out = out' := Option.some.inj (o1.symm.trans p1)
  rw [sq] at o4 o5
  cases out with | three x y z => ?_
  simp only [parts, List.map_cons, List.map_nil, List.cons.injEq, and_true] at o3
  have lo := g3.trans o4
  have hi := o5.trans g4
  refine ⟨x, y, z, _, _, _, o1, o3.1, o3.2.1, o3.2.2, p2, ?_⟩
  push_cast
  refine ⟨?_, ?_, ?_⟩
  · have := finish G o2 (show |vx - A| ≤ 18 * f.u by linarith) hs (by linarith) lo hi
    exact_mod_cast this
  · have := finish G (a := vy) (b := vx) (c := vz) (A := B) (B := A) (C := C) o2 (by linarith) (by linarith) (by linarith) (by linarith) (by linarith)
    rw [add_comm ((B : ℝ) ^ 2)] at this
    exact_mod_cast this
  · have := finish G (a := vz) (b := vx) (c := vy) (A := C) (B := A) (C := B) o2 (by linarith) (by linarith) (by linarith) (by linarith) (by linarith)
    rw [show (C : ℝ) ^ 2 + A ^ 2 + B ^ 2 = A ^ 2 + B ^ 2 + C ^ 2 by ring] at this
    exact_mod_cast this

/-- The bits of (3, 0, -4) in 32 bits, and what they are unpacked as. -/
example : IsSize 32 ∧ Contraction (.three true false true : Store Bool 3) ∧
    (unpack3 binary32 32 false true (.three false true false) 766951424).map (fun v => (parts v).map value) =
      some [some (10066330 / 2 ^ 24), some (0 / 2 ^ 24), some (-13421772 / 2 ^ 24)] := by
  refine ⟨by unfold IsSize; decide, by simp [Contraction, parts], by decide +kernel⟩

/-- The same in two dimensions. -/
theorem C157_unpack2 (f : Format) (hf : f = binary32 ∨ f = binary64) (n : ℕ) (hn : IsSize n) (kx : Bool) (c c' : Store Bool 2) (hc : Contraction c)
    (hc' : Contraction c') (b : ℕ) :
    ∃ x y X Y, unpack2 f n kx c b = some (.two x y) ∧ value x = some X ∧ value y = some Y ∧ Model.FloatLength.normalized f c' (.two x y) = some true ∧
      let d := Model.PackedUnit.unpack2 n b
      let L := √(d.1 ^ 2 + d.2 ^ 2 : ℚ)
      |(X : ℝ) - d.1 / L| ≤ 104 * f.u ∧ |(Y : ℝ) - d.2 / L| ≤ 104 * f.u := by
  have G := good hf
  have hu := u_pos f
  obtain ⟨r1, r63⟩ := range2 hn
  have R0 : (0 : ℚ) < Model.PackedUnit.xRange n 2 := by exact_mod_cast r1
  unfold unpack2 Model.PackedUnit.unpack2
  dsimp only
  set ix := b &&& Model.PackedUnit.xRange n 2 with hix
  have hle : ix ≤ Model.PackedUnit.xRange n 2 := Nat.and_le_right
  have hx0 : 0 ≤ (ix : ℚ) / Model.PackedUnit.xRange n 2 := by positivity
  have hx1 : (ix : ℚ) / Model.PackedUnit.xRange n 2 ≤ 1 := by rw [div_le_one R0]; exact_mod_cast hle
  have nx := coordinate_near G r1 r63 hle
  set X0 := (ix : ℚ) / Model.PackedUnit.xRange n 2
  have one : Near f 0 1 (((0 : ℕ) : ℚ) * f.tiny) (.fin false 1) 1 := by
    have := Near.exact f (x := .fin false 1) (X := 1) (by simp [value, signed])
    simpa using this
  have z1 := rest_near G one (nx kx) (by norm_num) (by norm_num) (by linarith)
  have s1 := sign_near (n := n) (i := 0) (b := b) (m := 1) G (by simpa using nx false) (by norm_num) (by norm_num) (by linarith)
  have s2 := sign_near (n := n) (i := 1) (b := b) G z1 (by norm_num) (by norm_num) (by linarith)
  obtain ⟨vx, x1, x2⟩ := Near.value G s1 (by norm_num) (by norm_num) (j := 1) (by push_cast; linarith) (by norm_num)
  obtain ⟨vy, y1, y2⟩ := Near.value G s2 (by norm_num) (by norm_num) (j := 2) (by push_cast; linarith) (by norm_num)
  norm_num at x2 y2
  set A := Model.PackedUnit.sign n 0 b * X0
  set B := Model.PackedUnit.sign n 1 b * (1 - X0)
  have hAB : |A| + |B| + |(0 : ℚ)| = 1 := by
    rw [sign_abs, sign_abs, abs_zero, abs_of_nonneg hx0, abs_of_nonneg (by linarith)]; ring
  have z0 : |(0 : ℚ) - 0| = 0 := by simp
  have hs : |vx - A| + |vy - B| + |(0 : ℚ) - 0| ≤ 34 * f.u := by linarith
  obtain ⟨k1, k2⟩ := size G hs hAB
  obtain ⟨g1, g2, g3, g4⟩ := bounds hf (n := 2) (.inl rfl)
  have hv : (parts (.two (Op.mul.eval f (signNumber n 0 b) (product f (cast f ix, rangeDiv f n 2) false))
      (Op.mul.eval f (signNumber n 1 b) (Op.sub.eval f (.fin false 1) (product f (cast f ix, rangeDiv f n 2) kx))))).map value = [vx, vy].map some := by
    simp only [parts, List.map_cons, List.map_nil, x1, y1]
  have sq : ([vx, vy].map (· ^ 2)).sum = vx ^ 2 + vy ^ 2 + 0 ^ 2 := by simp
  have hlo : 2 ^ f.emin ≤ f.u * ([vx, vy].map (· ^ 2)).sum := by rw [sq]; exact k1
  have hg : (1 + f.u) ^ (2 + 1) * ([vx, vy].map (· ^ 2)).sum ≤ f.greatest := by
    rw [sq]; exact (mul_le_mul_of_nonneg_right g2 (by positivity)).trans k2
  obtain ⟨out, w, o1, o2, o3, o4, o5⟩ := C150_normalize_partial f G.usual (by norm_num) c hc _ [vx, vy] hv g1 g2 hlo hg
  obtain ⟨out', p1, p2⟩ := C150_normalized (by norm_num) (by norm_num) f hf c c' hc hc' _ [vx, vy] hv hlo hg
  obtain rfl : out = out' := Option.some.inj (o1.symm.trans p1)
  rw [sq] at o4 o5
  cases out with | two x y => ?_
  simp only [parts, List.map_cons, List.map_nil, List.cons.injEq, and_true] at o3
  have lo := g3.trans o4
  have hi := o5.trans g4
  refine ⟨x, y, _, _, o1, o3.1, o3.2, p2, ?_⟩
  push_cast
  refine ⟨?_, ?_⟩
  · have := finish G o2 (show |vx - A| ≤ 18 * f.u by linarith) hs (by linarith) lo hi
    rw [show (A : ℝ) ^ 2 + B ^ 2 + ((0 : ℚ) : ℝ) ^ 2 = A ^ 2 + B ^ 2 by norm_num] at this
    exact_mod_cast this
  · have := finish G (a := vy) (b := vx) (c := 0) (A := B) (B := A) (C := 0) o2 (by linarith) (by linarith) (by linarith) (by linarith) (by linarith)
    rw [show (B : ℝ) ^ 2 + A ^ 2 + ((0 : ℚ) : ℝ) ^ 2 = A ^ 2 + B ^ 2 by norm_num; ring] at this
    exact_mod_cast this

/-- The unit vector of a direction does not depend on its length. -/
theorem unit_scale {x y z s : ℝ} (hs : 0 < s) : x / s / √((x / s) ^ 2 + (y / s) ^ 2 + (z / s) ^ 2) = x / √(x ^ 2 + y ^ 2 + z ^ 2) := by
  rw [show (x / s) ^ 2 + (y / s) ^ 2 + (z / s) ^ 2 = (x ^ 2 + y ^ 2 + z ^ 2) / s ^ 2 by field_simp, Real.sqrt_div (by positivity), Real.sqrt_sq hs.le]
  rw [div_div_div_cancel_right₀ hs.ne']

/-- Unit vectors of near directions. -/
theorem near_unit {a b c x y z e1 e2 : ℝ} (h : ¬(x = 0 ∧ y = 0 ∧ z = 0)) (d1 : 1 ≤ |a| + |b| + |c|) (h1 : |a - x / (|x| + |y| + |z|)| ≤ e1)
    (h2 : |a - x / (|x| + |y| + |z|)| + |b - y / (|x| + |y| + |z|)| + |c - z / (|x| + |y| + |z|)| ≤ e2) :
    |a / √(a ^ 2 + b ^ 2 + c ^ 2) - x / √(x ^ 2 + y ^ 2 + z ^ 2)| ≤ 7 / 4 * (e1 + e2) := by
  have hs : 0 < |x| + |y| + |z| := by
    by_contra h'
    have hx := abs_nonneg x; have hy := abs_nonneg y; have hz := abs_nonneg z
    exact h ⟨abs_eq_zero.1 (by linarith), abs_eq_zero.1 (by linarith), abs_eq_zero.1 (by linarith)⟩
  rw [← unit_scale (x := x) (y := y) (z := z) hs]
  have l1 := long d1
  have l2 := long (A := x / (|x| + |y| + |z|)) (B := y / (|x| + |y| + |z|)) (C := z / (|x| + |y| + |z|)) (by
    simp only [abs_div, abs_of_pos hs]
    rw [← add_div, ← add_div, div_self hs.ne'])
  have := direction (a := a) (b := b) (c := c) rfl rfl (by linarith) (lt_of_lt_of_le (by norm_num) l2)
  refine this.trans ?_
  have n1 := abs_nonneg (a - x / (|x| + |y| + |z|)); have n2 := abs_nonneg (b - y / (|x| + |y| + |z|)); have n3 := abs_nonneg (c - z / (|x| + |y| + |z|))
  refine (div_le_div₀ (by linarith) (add_le_add h1 h2) (by norm_num) l2).trans (le_of_eq ?_)
  ring

/-- Packing a vector that is not zero in three dimensions and unpacking it gives the unit vector of the same direction, but for a difference of at most 21 steps of the coordinate grid
in each component and the roundings, if `|y| ≤ |x|` or `z` is not negligible. Missing: vectors in the plane of x and y with `|x| < |y|`, for which it is false (C59). -/
theorem C157_round_trip3_partial (f : Format) (hf : f = binary32 ∨ f = binary64) (n p : ℕ) (hnp : Supported3 n p) (kx ky : Bool) (c c' : Store Bool 3)
    (hc : Contraction c) (hc' : Contraction c') (x y z : ℚ) (hx : IsFloat p x) (hy : IsFloat p y) (hz : IsFloat p z)
    (h0 : ¬(x = 0 ∧ y = 0 ∧ z = 0)) (hy' : |y| ≤ |x| ∨ 10 * (|x| + |y| + |z|) < |z| * 2 ^ p) :
    ∃ b r s t X Y Z, Model.PackedUnit.pack3 n p x y z = some b ∧ unpack3 f n kx ky c b = some (.three r s t) ∧
      value r = some X ∧ value s = some Y ∧ value t = some Z ∧ Model.FloatLength.normalized f c' (.three r s t) = some true ∧
      let L := √(x ^ 2 + y ^ 2 + z ^ 2 : ℚ)
      let e : ℝ := 21 / (2 ^ Model.PackedUnit.xBits n 3 - 1) + 104 * f.u
      |(X : ℝ) - x / L| ≤ e ∧ |(Y : ℝ) - y / L| ≤ e ∧ |(Z : ℝ) - z / L| ≤ e := by
  have hn : IsSize n := by
    unfold Supported3 at hnp
    simp only [List.mem_cons, Prod.mk.injEq, List.not_mem_nil, or_false] at hnp
    unfold IsSize
    omega
  obtain ⟨b, b1, b2, b3, b4⟩ := C59_unpack3_partial n p hnp x y z hx hy hz h0 hy'
  obtain ⟨r, s, t, X, Y, Z, u1, u2, u3, u4, u5, u6, u7, u8⟩ := C157_unpack3 f hf n hn kx ky c c' hc hc' b
  refine ⟨b, r, s, t, X, Y, Z, b1, u1, u2, u3, u4, u5, ?_⟩
  have dl := decode_le hn b
  have R0 : (0 : ℚ) < Model.PackedUnit.xRange n 3 := by exact_mod_cast (range3 hn).1
  have d1 : 1 ≤ |(Model.PackedUnit.unpack3 n b).1| + |(Model.PackedUnit.unpack3 n b).2.1| + |(Model.PackedUnit.unpack3 n b).2.2| := by
    unfold Model.PackedUnit.unpack3
    simp only [sign_abs]
    have a1 := le_abs_self (((Model.PackedUnit.decode3 n b).1 : ℚ) / Model.PackedUnit.xRange n 3)
    have a2 := le_abs_self (((Model.PackedUnit.decode3 n b).2 : ℚ) / Model.PackedUnit.xRange n 3)
    have a3 := le_abs_self (1 - ((Model.PackedUnit.decode3 n b).1 : ℚ) / Model.PackedUnit.xRange n 3 - ((Model.PackedUnit.decode3 n b).2 : ℚ) / Model.PackedUnit.xRange n 3)
    linarith
  generalize Model.PackedUnit.unpack3 n b = d at *
  obtain ⟨A, B, C⟩ := d
  dsimp only at *
  have k0 : ¬((x : ℝ) = 0 ∧ (y : ℝ) = 0 ∧ (z : ℝ) = 0) := by exact_mod_cast h0
  have k1 : (1 : ℝ) ≤ |(A : ℝ)| + |(B : ℝ)| + |(C : ℝ)| := by exact_mod_cast d1
  have e2 : |(A : ℝ) - x / (|(x : ℝ)| + |(y : ℝ)| + |(z : ℝ)|)| ≤ 2 / (2 ^ Model.PackedUnit.xBits n 3 - 1) := by exact_mod_cast (Rat.cast_le (K := ℝ)).2 b2
  have e3 : |(B : ℝ) - y / (|(x : ℝ)| + |(y : ℝ)| + |(z : ℝ)|)| ≤ 2 / (2 ^ Model.PackedUnit.xBits n 3 - 1) := by exact_mod_cast (Rat.cast_le (K := ℝ)).2 b3
  have e4 : |(C : ℝ) - z / (|(x : ℝ)| + |(y : ℝ)| + |(z : ℝ)|)| ≤ 4 / (2 ^ Model.PackedUnit.xBits n 3 - 1) := by exact_mod_cast (Rat.cast_le (K := ℝ)).2 b4
  set g : ℝ := 2 ^ Model.PackedUnit.xBits n 3 - 1
  have f2 : 2 / g = 2 * (1 / g) := by ring
  have f4 : 4 / g = 4 * (1 / g) := by ring
  have f21 : 21 / g = 21 * (1 / g) := by ring
  rw [f2] at e2 e3
  rw [f4] at e4
  rw [f21]
  push_cast at u6 u7 u8 ⊢
  have g0 : 0 ≤ 1 / g := by have := (abs_nonneg _).trans e2; linarith
  have n1 := near_unit (a := A) (b := B) (c := C) (x := x) (y := y) (z := z) (e1 := 4 * (1 / g)) (e2 := 8 * (1 / g)) k0 k1 (by linarith) (by linarith)
  have n2 := near_unit (a := B) (b := A) (c := C) (x := y) (y := x) (z := z) (e1 := 4 * (1 / g)) (e2 := 8 * (1 / g)) (by tauto) (by linarith)
    (by rw [add_comm |(y : ℝ)|]; linarith) (by rw [add_comm |(y : ℝ)|]; linarith)
  have n3 := near_unit (a := C) (b := A) (c := B) (x := z) (y := x) (z := y) (e1 := 4 * (1 / g)) (e2 := 8 * (1 / g)) (by tauto) (by linarith)
    (by rw [show |(z : ℝ)| + |(x : ℝ)| + |(y : ℝ)| = |(x : ℝ)| + |(y : ℝ)| + |(z : ℝ)| by ring]; linarith)
    (by rw [show |(z : ℝ)| + |(x : ℝ)| + |(y : ℝ)| = |(x : ℝ)| + |(y : ℝ)| + |(z : ℝ)| by ring]; linarith)
  rw [add_comm ((B : ℝ) ^ 2), add_comm ((y : ℝ) ^ 2)] at n2
  rw [show (C : ℝ) ^ 2 + A ^ 2 + B ^ 2 = A ^ 2 + B ^ 2 + C ^ 2 by ring, show (z : ℝ) ^ 2 + x ^ 2 + y ^ 2 = x ^ 2 + y ^ 2 + z ^ 2 by ring] at n3
  have tri : ∀ {p q r e e' : ℝ}, |p - q| ≤ e → |q - r| ≤ e' → |p - r| ≤ e' + e := by
    intro p q r e e' h h'
    have := abs_add_le (p - q) (q - r)
    rw [sub_add_sub_cancel] at this
    linarith
  refine ⟨(tri u6 n1).trans (by linarith), (tri u7 n2).trans (by linarith), (tri u8 n3).trans (by linarith)⟩

/-- The same in two dimensions, for every vector that is not zero; the pairs of types that are missing from `Supported2` are violated (C59). -/
theorem C157_round_trip2_partial (f : Format) (hf : f = binary32 ∨ f = binary64) (n p : ℕ) (hnp : Supported2 n p) (kx : Bool) (c c' : Store Bool 2)
    (hc : Contraction c) (hc' : Contraction c') (x y : ℚ) (hx : IsFloat p x) (hy : IsFloat p y) (h0 : ¬(x = 0 ∧ y = 0)) :
    ∃ b r s X Y, (∀ assumes, Model.PackedUnit.pack2 assumes n p x y = some b) ∧ unpack2 f n kx c b = some (.two r s) ∧
      value r = some X ∧ value s = some Y ∧ Model.FloatLength.normalized f c' (.two r s) = some true ∧
      let L := √(x ^ 2 + y ^ 2 : ℚ)
      let e : ℝ := 21 / (2 ^ (n - 2) - 1) + 104 * f.u
      |(X : ℝ) - x / L| ≤ e ∧ |(Y : ℝ) - y / L| ≤ e := by
  have hn : IsSize n := by
    unfold Supported2 at hnp
    simp only [List.mem_cons, Prod.mk.injEq, List.not_mem_nil, or_false] at hnp
    unfold IsSize
    omega
  obtain ⟨b, b1, -, -, -, b2, b3⟩ := C59_pack2_partial n p hnp x y hx hy h0
  obtain ⟨r, s, X, Y, u1, u2, u3, u5, u6, u7⟩ := C157_unpack2 f hf n hn kx c c' hc hc' b
  refine ⟨b, r, s, X, Y, b1, u1, u2, u3, u5, ?_⟩
  have d1 : 1 ≤ |(Model.PackedUnit.unpack2 n b).1| + |(Model.PackedUnit.unpack2 n b).2| := by
    unfold Model.PackedUnit.unpack2
    simp only [sign_abs]
    have a1 := le_abs_self (((b &&& Model.PackedUnit.xRange n 2 : ℕ) : ℚ) / Model.PackedUnit.xRange n 2)
    have a3 := le_abs_self (1 - ((b &&& Model.PackedUnit.xRange n 2 : ℕ) : ℚ) / Model.PackedUnit.xRange n 2)
    linarith
  generalize Model.PackedUnit.unpack2 n b = d at *
  obtain ⟨A, B⟩ := d
  dsimp only at *
  have k0 : ¬((x : ℝ) = 0 ∧ (y : ℝ) = 0 ∧ (0 : ℝ) = 0) := by
    rintro ⟨h1, h2, -⟩
    exact h0 ⟨by exact_mod_cast h1, by exact_mod_cast h2⟩
  have k1 : (1 : ℝ) ≤ |(A : ℝ)| + |(B : ℝ)| + |(0 : ℝ)| := by rw [abs_zero, add_zero]; exact_mod_cast d1
  have e2 : |(A : ℝ) - x / (|(x : ℝ)| + |(y : ℝ)|)| ≤ 2 / (2 ^ (n - 2) - 1) := by exact_mod_cast (Rat.cast_le (K := ℝ)).2 b2
  have e3 : |(B : ℝ) - y / (|(x : ℝ)| + |(y : ℝ)|)| ≤ 2 / (2 ^ (n - 2) - 1) := by exact_mod_cast (Rat.cast_le (K := ℝ)).2 b3
  set g : ℝ := 2 ^ (n - 2) - 1
  have f2 : 2 / g = 2 * (1 / g) := by ring
  have f21 : 21 / g = 21 * (1 / g) := by ring
  rw [f2] at e2 e3
  rw [f21]
  push_cast at u6 u7 ⊢
  have g0 : 0 ≤ 1 / g := by have := (abs_nonneg _).trans e2; linarith
  have n1 := near_unit (a := A) (b := B) (c := 0) (x := x) (y := y) (z := 0) (e1 := 4 * (1 / g)) (e2 := 8 * (1 / g)) k0 k1
    (by rw [abs_zero, add_zero]; linarith) (by simp only [abs_zero, add_zero, zero_div, sub_self]; linarith)
  have n2 := near_unit (a := B) (b := A) (c := 0) (x := y) (y := x) (z := 0) (e1 := 4 * (1 / g)) (e2 := 8 * (1 / g)) (by tauto) (by linarith)
    (by rw [abs_zero, add_zero, add_comm |(y : ℝ)|]; linarith) (by simp only [abs_zero, add_zero, zero_div, sub_self]; rw [add_comm |(y : ℝ)|]; linarith)
  rw [add_comm ((B : ℝ) ^ 2), add_comm ((y : ℝ) ^ 2)] at n2
  simp only [ne_eq, OfNat.ofNat_ne_zero, not_false_eq_true, zero_pow, add_zero] at n1 n2
  have tri : ∀ {p q r e e' : ℝ}, |p - q| ≤ e → |q - r| ≤ e' → |p - r| ≤ e' + e := by
    intro p q r e e' h h'
    have := abs_add_le (p - q) (q - r)
    rw [sub_add_sub_cancel] at this
    linarith
  refine ⟨(tri u6 n1).trans (by linarith), (tri u7 n2).trans (by linarith)⟩

/-- The hypotheses hold of the vector (3, 0, -4) of `float`, packed in 32 bits and unpacked as `double`, and of the vector (-3, 4) of `double`, packed in 32 bits and unpacked as `float`. -/
example : ∃ b r s t X Y Z, Model.PackedUnit.pack3 32 24 3 0 (-4) = some b ∧ unpack3 binary64 32 true true (.three false true true) b = some (.three r s t) ∧
    value r = some X ∧ value s = some Y ∧ value t = some Z ∧ |(X : ℝ) - 3 / 5| ≤ 22 / 32767 := by
  have f3 : IsFloat 24 3 := by have := Proofs.Float.rnd_nat 24 (by norm_num) 3 (by norm_num); exact_mod_cast this
  have f4 : IsFloat 24 (-4) := by
    have := Proofs.Float.rnd_nat 24 (by norm_num) 4 (by norm_num)
    unfold IsFloat
    rw [Proofs.Float.rnd_neg]; congr 1
  obtain ⟨b, r, s, t, X, Y, Z, h1, h2, h3, h4, h5, -, h6, -⟩ := C157_round_trip3_partial binary64 (.inr rfl) 32 24 (by unfold Supported3; decide) true true
    (.three false true true) (.three false false false) (by simp [Contraction, parts]) (by simp [Contraction, parts]) 3 0 (-4) f3 (Proofs.Float.rnd_zero 24) f4
    (by norm_num) (.inl (by norm_num))
  refine ⟨b, r, s, t, X, Y, Z, h1, h2, h3, h4, h5, ?_⟩
  have e5 : √(((3 : ℚ) ^ 2 + 0 ^ 2 + (-4) ^ 2 : ℚ) : ℝ) = 5 := by
    rw [show (((3 : ℚ) ^ 2 + 0 ^ 2 + (-4) ^ 2 : ℚ) : ℝ) = 5 ^ 2 by norm_num]
    exact Real.sqrt_sq (by norm_num)
  rw [e5, show Model.PackedUnit.xBits 32 3 = 15 by decide] at h6
  push_cast at h6
  refine h6.trans ?_
  have : ((binary64.u : ℚ) : ℝ) = 1 / 2 ^ 53 := by unfold Format.u binary64; norm_num
  rw [this]
  norm_num

example : Supported2 32 53 ∧ IsFloat 53 4 ∧ Contraction (.two true false : Store Bool 2) ∧
    (unpack2 binary32 32 true (.two true false) (2 ^ 31 + 460175067)).map (fun v => (parts v).map value) =
      some [some (-10066330 / 2 ^ 24), some (13421772 / 2 ^ 24)] := by
  refine ⟨by unfold Supported2; decide, ?_, by simp [Contraction, parts], by decide +kernel⟩
  have := Proofs.Float.rnd_nat 53 (by norm_num) 4 (by norm_num); exact_mod_cast this

end Verif.Props.PackedFloat
