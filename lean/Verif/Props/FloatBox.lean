import Verif.Proofs.FloatBox

/-!
# Bounding boxes of floating-point numbers (C166)

A box has a center and extents of some format (`float` or `double`); the answers about it are compared with the exact box that these numbers
mean, `Verif.Spec.Region.Inside`. Points and boxes are finite numbers of the format.
-/

namespace Verif.Props.FloatBox

open Verif.Spec.IeeeArith Verif.Spec.FloatFormat Verif.Spec.Region Verif.Model.FloatBox Verif.Proofs.FloatBox Verif.Proofs.Approx

/-- The coordinates are numbers of the format. -/
def Of (f : Format) (v : Vec) : Prop := ∀ i, f.Has (v i)

/-- The box is made of finite numbers of the format, with these values. -/
def BoxOf (f : Format) (b : Box) (C E : Fin 3 → ℚ) : Prop := Of f b.center ∧ Of f b.extents ∧ Values b.center C ∧ Values b.extents E

theorem BoxOf.greatest {f : Format} {b : Box} {C E : Fin 3 → ℚ} (h : BoxOf f b C E) : 0 ≤ f.greatest := greatest_nonneg (h.1 0) (h.2.2.1 0)

/-- **C166, points.** contains(point) is true of every point of the box; a point of which it is true is in the box, or outside by less than the
rounding of its distance to the center. -/
theorem C166_contains (f : Format) (hp : 1 ≤ f.p) (b : Box) (C E : Fin 3 → ℚ) (hb : BoxOf f b C E) (p : Vec) (P : Fin 3 → ℚ) (hf : Of f p) (hP : Values p P) :
    (Inside C E P → containsPoint f b p = true) ∧ (containsPoint f b p = true → Inside C (fun i => E i + f.u * |P i - C i|) P) := by
  obtain ⟨h1, h2, h3, h4⟩ := hb
  constructor
  · intro h
    rw [containsPoint_iff]
    intro i
    refine axis_complete hp (hP i) (h3 i) (h4 i) (h2 i) ?_
    have := h i
    rw [abs_le]
    constructor <;> linarith
  · intro h i
    rw [containsPoint_iff] at h
    have := axis_sound hp (hP i) (h3 i) (h4 i) (hf i) (h1 i) (h i)
    have h5 : |P i - C i| ≤ E i + f.u * |P i - C i| := by linarith
    rw [abs_le] at h5
    constructor <;> linarith

/-- **C166, overlap.** Two boxes with a point in common intersect; if two boxes intersect, they have a point in common when they are made larger
by the rounding of their corners (if these do not overflow). The order of the boxes does not matter, whatever they are. -/
theorem C166_intersects (f : Format) (hp : 1 ≤ f.p) (a b : Box) :
    intersects f a b = intersects f b a ∧
      ∀ A D B E, BoxOf f a A D → BoxOf f b B E →
        (Meet A D B E → intersects f a b = true) ∧
          (NonEmpty D → NonEmpty E → (∃ w x y z, Values (minCorner f a) w ∧ Values (maxCorner f a) x ∧ Values (minCorner f b) y ∧ Values (maxCorner f b) z) →
            intersects f a b = true → Meet A (fun i => D i + margin f A D i) B (fun i => E i + margin f B E i)) := by
  refine ⟨?_, ?_⟩
  · rw [Bool.eq_iff_iff, intersects_iff, intersects_iff]
    exact forall_congr' fun i => and_comm
  · intro A D B E ha hb
    have hg := ha.greatest
    constructor
    · rintro ⟨P, h1, h2⟩
      rw [intersects_iff]
      intro i
      have := h1 i
      have := h2 i
      exact ⟨out_le hp hg (out_min hp hg hb.2.2.1 hb.2.2.2 i) (out_max hp hg ha.2.2.1 ha.2.2.2 i) (by linarith),
        out_le hp hg (out_min hp hg ha.2.2.1 ha.2.2.2 i) (out_max hp hg hb.2.2.1 hb.2.2.2 i) (by linarith)⟩
    · rintro hD hE ⟨w, x, y, z, hw, hx, hy, hz⟩ h
      rw [intersects_iff] at h
      have key : ∀ i, A i - (D i + margin f A D i) ≤ B i + (E i + margin f B E i) ∧ B i - (E i + margin f B E i) ≤ A i + (D i + margin f A D i) ∧
          0 ≤ margin f A D i ∧ 0 ≤ margin f B E i := by
        intro i
        have e1 := out_finite (out_min hp hg ha.2.2.1 ha.2.2.2 i) (hw i)
        have e2 := out_finite (out_max hp hg ha.2.2.1 ha.2.2.2 i) (hx i)
        have e3 := out_finite (out_min hp hg hb.2.2.1 hb.2.2.2 i) (hy i)
        have e4 := out_finite (out_max hp hg hb.2.2.1 hb.2.2.2 i) (hz i)
        obtain ⟨h1, h2⟩ := h i
        rw [atLeast_values (hx i) (hy i)] at h1
        rw [atLeast_values (hz i) (hw i)] at h2
        obtain ⟨k1, k2⟩ := corner_err (ha.1 i) (ha.2.1 i) (ha.2.2.1 i) (ha.2.2.2 i) (hD i)
        obtain ⟨k3, k4⟩ := corner_err (hb.1 i) (hb.2.1 i) (hb.2.2.1 i) (hb.2.2.2 i) (hE i)
        rw [← e1] at k2
        rw [← e2] at k1
        rw [← e3] at k4
        rw [← e4] at k3
        have l1 := (abs_nonneg _).trans k1
        have l3 := (abs_nonneg _).trans k3
        rw [abs_le] at k1 k2 k3 k4
        unfold margin
        refine ⟨?_, ?_, l1, l3⟩ <;> linarith
      refine ⟨fun i => max (A i - (D i + margin f A D i)) (B i - (E i + margin f B E i)), fun i => ⟨le_max_left .., max_le ?_ (key i).2.1⟩,
        fun i => ⟨le_max_right .., max_le (key i).1 ?_⟩⟩
      · have := hD i
        have := (key i).2.2.1
        linarith
      · have := hE i
        have := (key i).2.2.2
        linarith

/-- **C166, inclusion.** A box contains every box all of whose points are among its own; if it contains a box, the points of that are its own when it
is made larger by the rounding of the corners of both (if these do not overflow). Whatever the boxes are, a box contained in one that is contained in
another is contained in that; a box of finite numbers contains itself. A box, not empty, intersects one that contains it. -/
theorem C166_inclusion (f : Format) (hp : 1 ≤ f.p) (a b : Box) :
    (∀ c, containsBox f a b = true → containsBox f b c = true → containsBox f a c = true) ∧
      ∀ A D B E, BoxOf f a A D → BoxOf f b B E → NonEmpty E →
        containsBox f b b = true ∧
          (containsBox f a b = true → intersects f a b = true) ∧
            ((∀ P, Inside B E P → Inside A D P) → containsBox f a b = true) ∧
              (NonEmpty D → (∃ w x y z, Values (minCorner f a) w ∧ Values (maxCorner f a) x ∧ Values (minCorner f b) y ∧ Values (maxCorner f b) z) →
                containsBox f a b = true → ∀ P, Inside B E P → Inside A (fun i => D i + margin f A D i + margin f B E i) P) := by
  refine ⟨?_, ?_⟩
  · intro c h1 h2
    rw [containsBox_iff] at h1 h2 ⊢
    exact fun i => ⟨atLeast_trans (h2 i).1 (h1 i).1, atLeast_trans (h1 i).2 (h2 i).2⟩
  · intro A D B E ha hb hE
    have hg := ha.greatest
    have q1 := fun i => out_min hp hg ha.2.2.1 ha.2.2.2 i
    have q2 := fun i => out_max hp hg ha.2.2.1 ha.2.2.2 i
    have q3 := fun i => out_min hp hg hb.2.2.1 hb.2.2.2 i
    have q4 := fun i => out_max hp hg hb.2.2.1 hb.2.2.2 i
    refine ⟨?_, ?_, ?_, ?_⟩
    · rw [containsBox_iff]
      exact fun i => ⟨out_le hp hg (q3 i) (q3 i) le_rfl, out_le hp hg (q4 i) (q4 i) le_rfl⟩
    · intro h
      rw [containsBox_iff] at h
      rw [intersects_iff]
      intro i
      have := hE i
      have hh := out_le hp hg (q3 i) (q4 i) (by linarith)
      exact ⟨atLeast_trans (h i).2 hh, atLeast_trans hh (h i).1⟩
    · intro h
      rw [containsBox_iff]
      have h1 := h (fun i => B i - E i) (fun i => ⟨le_rfl, by have := hE i; linarith⟩)
      have h2 := h (fun i => B i + E i) (fun i => ⟨by have := hE i; linarith, le_rfl⟩)
      exact fun i => ⟨out_le hp hg (q1 i) (q3 i) (h1 i).1, out_le hp hg (q4 i) (q2 i) (h2 i).2⟩
    · rintro hD ⟨w, x, y, z, hw, hx, hy, hz⟩ h P hP i
      rw [containsBox_iff] at h
      have e1 := out_finite (q1 i) (hw i)
      have e2 := out_finite (q2 i) (hx i)
      have e3 := out_finite (q3 i) (hy i)
      have e4 := out_finite (q4 i) (hz i)
      obtain ⟨h1, h2⟩ := h i
      rw [atLeast_values (hy i) (hw i)] at h1
      rw [atLeast_values (hx i) (hz i)] at h2
      obtain ⟨k1, k2⟩ := corner_err (ha.1 i) (ha.2.1 i) (ha.2.2.1 i) (ha.2.2.2 i) (hD i)
      obtain ⟨k3, k4⟩ := corner_err (hb.1 i) (hb.2.1 i) (hb.2.2.1 i) (hb.2.2.2 i) (hE i)
      rw [← e1] at k2
      rw [← e2] at k1
      rw [← e3] at k4
      rw [← e4] at k3
      rw [abs_le] at k1 k2 k3 k4
      have := hP i
      unfold margin
      constructor <;> linarith

/-- **C166, closest point.** The closest point of a point of the box is that point. In any case, along each axis, it is the number closest to the point
between the corners that the box reports, and the closest point of the result is the result. -/
theorem C166_closest (f : Format) (hp : 1 ≤ f.p) (b : Box) (C E : Fin 3 → ℚ) (hb : BoxOf f b C E) (hE : NonEmpty E) (p : Vec) (P : Fin 3 → ℚ) (hf : Of f p)
    (hP : Values p P) :
    (Inside C E P → Values (closestPoint f b p) P) ∧
      ∀ lo hi, Values (minCorner f b) lo → Values (maxCorner f b) hi →
        ∃ Q, Values (closestPoint f b p) Q ∧ Between lo hi Q ∧ (∀ W, Between lo hi W → ∀ i, |Q i - P i| ≤ |W i - P i|) ∧
          closestPoint f b (closestPoint f b p) = closestPoint f b p := by
  have hg := hb.greatest
  have q1 := fun i => out_min hp hg hb.2.2.1 hb.2.2.2 i
  have q2 := fun i => out_max hp hg hb.2.2.1 hb.2.2.2 i
  constructor
  · intro h i
    have hR := has_R (hf i) (hP i)
    have ho : Out f (P i) (p i) := .inl ⟨by rw [Proofs.Kahan.rd_R hp hR.1]; exact hR.2, by rw [Proofs.Kahan.rd_R hp hR.1]; exact hP i⟩
    have h1 := out_le hp hg (q1 i) ho (h i).1
    have h2 := out_le hp hg ho (q2 i) (h i).2
    have nl : ∀ {x y : Number}, Model.Kahan.atLeast x y = true → Model.Kahan.less x y = false := by
      intro x y hxy
      cases x <;> cases y <;> simp_all [Model.Kahan.atLeast]
    have e : closestPoint f b p i = p i := by
      show (if Model.Kahan.less (p i) (minCorner f b i) = true then minCorner f b i else if Model.Kahan.less (maxCorner f b i) (p i) = true then maxCorner f b i else p i) = p i
      rw [nl h1, nl h2]
      rfl
    rw [e, hP i]
  · intro lo hi hlo hhi
    have hle : ∀ i, lo i ≤ hi i := by
      intro i
      have := hE i
      exact (atLeast_values (hhi i) (hlo i)).1 (out_le hp hg (q1 i) (q2 i) (by linarith))
    have val : ∀ (v : Vec) (V : Fin 3 → ℚ), Values v V → ∀ i, closestPoint f b v i = (if V i < lo i then minCorner f b i else if hi i < V i then maxCorner f b i else v i) := by
      intro v V hv i
      show (if Model.Kahan.less (v i) (minCorner f b i) = true then minCorner f b i else if Model.Kahan.less (maxCorner f b i) (v i) = true then maxCorner f b i else v i) = _
      simp only [less_values (hv i) (hlo i), less_values (hhi i) (hv i)]
    have hQ : Values (closestPoint f b p) (fun i => if P i < lo i then lo i else if hi i < P i then hi i else P i) := by
      intro i
      rw [val p P hP i]
      try dsimp only
      split_ifs
      · exact hlo i
      · exact hhi i
      · exact hP i
    refine ⟨_, hQ, ?_, ?_, ?_⟩
    · intro i
      have := hle i
      try dsimp only
      split_ifs <;> constructor <;> linarith
    · intro W hW i
      have := hW i
      try dsimp only
      split_ifs
      · rw [abs_of_pos (by linarith), abs_of_nonneg (by linarith)]; linarith
      · rw [abs_of_neg (by linarith), abs_of_nonpos (by linarith)]; linarith
      · rw [sub_self, abs_zero]; exact abs_nonneg _
    · funext i
      rw [val _ _ hQ i]
      have := hle i
      try dsimp only
      split_ifs <;> first | rfl | linarith

/-- **C166, fit (partial).** A box made of two corners has every point between them, when it is made larger by the relative rounding of the corners: its
center is halfway between them, and its extents are half their difference, each within the rounding of one operation. -/
theorem C166_fit_partial (f : Format) (hp : 1 ≤ f.p) (min max : Vec) (m M : Fin 3 → ℚ) (h1 : Of f min) (h2 : Of f max) (h3 : Values min m) (h4 : Values max M)
    (C E : Fin 3 → ℚ) (hC : Values (fromMinMax f min max).center C) (hE : Values (fromMinMax f min max).extents E) :
    (∀ i, |C i - (m i + M i) / 2| ≤ f.u * |m i + M i| / 2 + f.tiny ∧ |E i - (M i - m i) / 2| ≤ f.u * |M i - m i| / 2 + f.tiny) ∧
      ∀ P, Between m M P → Inside C (fun i => E i + (f.u * Max.max |m i| |M i| + 2 * f.tiny)) P := by
  have hg := greatest_nonneg (h1 0) (h3 0)
  have key : ∀ i, |C i - (m i + M i) / 2| ≤ f.u * |m i + M i| / 2 + f.tiny ∧ |E i - (M i - m i) / 2| ≤ f.u * |M i - m i| / 2 + f.tiny := by
    intro i
    refine ⟨half_sum hp hg (h3 i) (h4 i) (err_has (h1 i) (h2 i) (h3 i) (h4 i)).1 (hC i), ?_⟩
    have he := (err_has (h2 i) (h1 i) (h4 i) (h3 i)).2
    rw [sub_eq_add_neg (M i) (m i)] at he ⊢
    exact half_sum hp hg (h4 i) (value_negate (h3 i)) he (hE i)
  exact ⟨key, fun P hP i => means (hP i).1 (hP i).2 f.u f.tiny (C i) (E i) (key i).1 (key i).2⟩

/-- **C166, fit to points (partial).** The same of the points that a box was made of: `r` is the greatest coordinate of theirs along the axis. -/
theorem C166_points_partial (f : Format) (hp : 1 ≤ f.p) (p0 p1 : Vec) (ps : List Vec) (h : ∀ p ∈ p0 :: p1 :: ps, Of f p ∧ ∃ P, Values p P) (C E r : Fin 3 → ℚ)
    (hC : Values (fromPoints f p0 p1 ps).center C) (hE : Values (fromPoints f p0 p1 ps).extents E)
    (hr : ∀ p ∈ p0 :: p1 :: ps, ∀ P, Values p P → ∀ i, |P i| ≤ r i) :
    ∀ p ∈ p0 :: p1 :: ps, ∀ P, Values p P → Inside C (fun i => E i + (f.u * r i + 2 * f.tiny)) P := by
  have hv : ∀ i, ∀ p ∈ p0 :: p1 :: ps, ∃ X, value (p i) = some X := fun i p hp => ⟨_, (h p hp).2.choose_spec i⟩
  choose hm m hm1 hm2 using fun i => minMany_spec i ps p0 p1 (hv i)
  choose hM M hM1 hM2 using fun i => maxMany_spec i ps p0 p1 (hv i)
  have hasm : Of f (minMany p0 p1 ps) := fun i => by obtain ⟨q, hq, e⟩ := hm i; rw [e]; exact (h q hq).1 i
  have hasM : Of f (maxMany p0 p1 ps) := fun i => by obtain ⟨q, hq, e⟩ := hM i; rw [e]; exact (h q hq).1 i
  obtain ⟨-, key⟩ := C166_fit_partial f hp _ _ m M hasm hasM hm1 hM1 C E hC hE
  intro p hp' P hP i
  have := key P (fun i => ⟨hm2 i p hp' _ (hP i), hM2 i p hp' _ (hP i)⟩) i
  have hmax : Max.max |m i| |M i| ≤ r i := by
    apply max_le
    · obtain ⟨q, hq, e⟩ := hm i
      obtain ⟨Q, hQ⟩ := (h q hq).2
      have e2 := hm1 i
      rw [e, hQ i] at e2
      rw [← Option.some.inj e2]
      exact hr q hq Q hQ i
    · obtain ⟨q, hq, e⟩ := hM i
      obtain ⟨Q, hQ⟩ := (h q hq).2
      have e2 := hM1 i
      rw [e, hQ i] at e2
      rw [← Option.some.inj e2]
      exact hr q hq Q hQ i
  have hu := mul_le_mul_of_nonneg_left hmax (Proofs.FloatVector.u_pos f).le
  exact ⟨by linarith [this.1], by linarith [this.2]⟩

/-- **C166, append (partial).** A box extended by a point has the point, and every point between its former corners, when it is made larger by the
rounding of a number `r` that none of their coordinates exceeds. -/
theorem C166_append_partial (f : Format) (hp : 1 ≤ f.p) (b : Box) (lo hi : Fin 3 → ℚ) (hlo : Values (minCorner f b) lo) (hhi : Values (maxCorner f b) hi)
    (p : Vec) (P : Fin 3 → ℚ) (hf : Of f p) (hP : Values p P) (C E r : Fin 3 → ℚ) (hC : Values (append f b p).center C) (hE : Values (append f b p).extents E)
    (hr : ∀ i, |lo i| ≤ r i ∧ |hi i| ≤ r i ∧ |P i| ≤ r i) :
    Inside C (fun i => E i + (f.u * r i + 2 * f.tiny)) P ∧ ∀ W, Between lo hi W → Inside C (fun i => E i + (f.u * r i + 2 * f.tiny)) W := by
  have hm : Values (minMany (minCorner f b) p []) (fun i => min (lo i) (P i)) := fun i => min2_value (hlo i) (hP i)
  have hM : Values (maxMany (maxCorner f b) p []) (fun i => max (hi i) (P i)) := fun i => max2_value (hhi i) (hP i)
  have hasm : Of f (minMany (minCorner f b) p []) := by
    intro i
    rcases min2_or (x := minCorner f b i) (y := p i) with e | e
    · show f.Has (Model.CoreUtils.min2 Model.Kahan.less (minCorner f b i) (p i)); rw [e]; exact round_is hp (fun _ _ h => add_mag h)
    · show f.Has (Model.CoreUtils.min2 Model.Kahan.less (minCorner f b i) (p i)); rw [e]; exact hf i
  have hasM : Of f (maxMany (maxCorner f b) p []) := by
    intro i
    rcases max2_or (x := maxCorner f b i) (y := p i) with e | e
    · show f.Has (Model.CoreUtils.max2 Model.Kahan.less (maxCorner f b i) (p i)); rw [e]; exact round_is hp (fun _ _ h => add_mag h)
    · show f.Has (Model.CoreUtils.max2 Model.Kahan.less (maxCorner f b i) (p i)); rw [e]; exact hf i
  obtain ⟨-, key⟩ := C166_fit_partial f hp _ _ _ _ hasm hasM hm hM C E hC hE
  have grow : ∀ W, Between (fun i => min (lo i) (P i)) (fun i => max (hi i) (P i)) W → Inside C (fun i => E i + (f.u * r i + 2 * f.tiny)) W := by
    intro W hW i
    have := key W hW i
    have hmax : max |min (lo i) (P i)| |max (hi i) (P i)| ≤ r i := by
      apply max_le
      · rcases min_choice (lo i) (P i) with e | e <;> rw [e]
        · exact (hr i).1
        · exact (hr i).2.2
      · rcases max_choice (hi i) (P i) with e | e <;> rw [e]
        · exact (hr i).2.1
        · exact (hr i).2.2
    have hu := mul_le_mul_of_nonneg_left hmax (Proofs.FloatVector.u_pos f).le
    exact ⟨by linarith [this.1], by linarith [this.2]⟩
  exact ⟨grow P fun i => ⟨min_le_right .., le_max_right ..⟩, fun W hW => grow W fun i => ⟨(min_le_left ..).trans (hW i).1, (hW i).2.trans (le_max_left ..)⟩⟩

/-- A finite number of this value. -/
def num (x : ℚ) : Number := .fin (decide (x < 0)) |x|

/-- The vector whose coordinates are all `x`. -/
def all (x : ℚ) : Vec := fun _ => num x

/-- **C166, violations.** A box made of two points need not contain them, a box extended by a point need not contain it, a box need not contain the
corners that it reports, and a box made of two points that are far away contains nothing, not even them. -/
theorem C166_violated :
    containsPoint binary32 (fromPoints binary32 (all (1 / 2 ^ 17)) (all 128) []) (all 128) = false ∧
    containsPoint binary32 (append binary32 ⟨all (1 / 2 ^ 17), all 0⟩ (all 128)) (all 128) = false ∧
    containsPoint binary32 ⟨all 376, all (3 / 2 ^ 16)⟩ (maxCorner binary32 ⟨all 376, all (3 / 2 ^ 16)⟩) = false ∧
    ∀ p, containsPoint binary32 (fromPoints binary32 (all (2 ^ 127)) (all (3 * 2 ^ 126)) []) p = false := by
  refine ⟨by decide +kernel, by decide +kernel, by decide +kernel, ?_⟩
  intro p
  have e : (fromPoints binary32 (all (2 ^ 127)) (all (3 * 2 ^ 126)) []).center 0 = .inf false ∧
      (fromPoints binary32 (all (2 ^ 127)) (all (3 * 2 ^ 126)) []).extents 0 = .fin false (2 ^ 125) := by
    constructor <;> decide +kernel
  have : atMost (Model.Kahan.abs (Model.FloatVector.Op.sub.eval binary32 (p 0) ((fromPoints binary32 (all (2 ^ 127)) (all (3 * 2 ^ 126)) []).center 0)))
      ((fromPoints binary32 (all (2 ^ 127)) (all (3 * 2 ^ 126)) []).extents 0) = false := by
    rw [e.1, e.2]
    cases p 0 with
    | nan => rfl
    | inf s => cases s <;> rfl
    | fin s a => rfl
  unfold containsPoint
  simp only [this, Bool.false_and]

theorem all_of (x : ℚ) (m : ℕ) (k : ℤ) (hm : m < 2 ^ 24) (hk : -149 ≤ k) (e : |x| = m * 2 ^ k) (hg : |x| ≤ binary32.greatest) : Of binary32 (all x) ∧ Values (all x) (fun _ => x) := by
  refine ⟨fun i => ⟨⟨m, k, hm, hk, e⟩, hg⟩, fun i => ?_⟩
  simp only [all, num, value, Proofs.FloatVector.signed_abs]

/-- A box around (3, 3, 3) that extends by 5, and (-2, -2, -2) at its corner. -/
example : BoxOf binary32 ⟨all 3, all 5⟩ (fun _ => 3) (fun _ => 5) ∧ Inside (fun _ => 3) (fun _ => 5) (fun _ => -2) ∧ containsPoint binary32 ⟨all 3, all 5⟩ (all (-2)) = true ∧
    containsPoint binary32 ⟨all 3, all 5⟩ (all (-2 - 1 / 2 ^ 20)) = false := by
  have h3 := all_of 3 3 0 (by norm_num) (by norm_num) (by norm_num) (by decide +kernel)
  have h5 := all_of 5 5 0 (by norm_num) (by norm_num) (by norm_num) (by decide +kernel)
  exact ⟨⟨h3.1, h5.1, h3.2, h5.2⟩, fun i => by norm_num, by decide +kernel, by decide +kernel⟩

/-- Two boxes that touch, one that contains another and two that do neither. -/
example : intersects binary32 ⟨all 3, all 5⟩ ⟨all 9, all 1⟩ = true ∧ containsBox binary32 ⟨all 3, all 5⟩ ⟨all (-1), all 1⟩ = true ∧
    containsBox binary32 ⟨all 3, all 5⟩ ⟨all 7, all (3 / 2)⟩ = false ∧ intersects binary32 ⟨all 3, all 5⟩ ⟨all (-4), all 1⟩ = false ∧
    Meet (fun _ => 3) (fun _ => 5) (fun _ => 9) (fun _ => 1) :=
  ⟨by decide +kernel, by decide +kernel, by decide +kernel, by decide +kernel, fun _ => 8, fun _ => by norm_num, fun _ => by norm_num⟩

/-- The extended box of the second violation is finite; so is the first. -/
example : (fromPoints binary32 (all (1 / 2 ^ 17)) (all 128) []).center 0 = num 64 ∧ (fromPoints binary32 (all (1 / 2 ^ 17)) (all 128) []).extents 0 = num (64 - 1 / 2 ^ 18) := by
  constructor <;> decide +kernel

/-- A point beyond a corner. -/
example : closestPoint binary32 ⟨all 3, all 5⟩ (all 20) 0 = num 8 ∧ closestPoint binary32 ⟨all 3, all 5⟩ (all (-7)) 1 = num (-2) ∧
    closestPoint binary32 ⟨all 3, all 5⟩ (all 1) 2 = num 1 := by
  refine ⟨?_, ?_, ?_⟩ <;> decide +kernel

end Verif.Props.FloatBox
