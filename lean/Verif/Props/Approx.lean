import Verif.Proofs.Approx

/-! # C151: approximate equality of vectors, matrices, quaternions and shapes -/

namespace Verif.Props.Approx

open Verif.Spec.CInt Verif.Spec.IeeeArith Verif.Spec.FloatFormat Verif.Spec.Closeness Verif.Model.VectorStore Verif.Model.Approx
  Verif.Proofs.VectorStore Verif.Proofs.FloatVector Verif.Proofs.Approx

/-- A result is a decision whether the scalars of every pair differ by less than epsilon: never yes if some do not, and yes if all do with some margin
(rounding the difference can increase it a little). -/
def Decides (margin : ℚ) (eps : Number) (pairs : List (Number × Number)) (result : Option Bool) : Prop :=
  result ≠ none ∧ (result = some true → ∀ p ∈ pairs, Close eps p.1 p.2) ∧ ((∀ p ∈ pairs, Clear margin eps p.1 p.2) → result = some true)

/-- A format of a type that muu has: `half`, or one with more bits. -/
def Ordinary (f : Format) : Prop := 1 ≤ f.p ∧ (f.p ≤ 11 → f = binary16)

/-- The scalars of a vector are numbers of a format. -/
def Of (f : Format) {n : ℕ} (v : Store Number n) : Prop := ∀ x ∈ parts v, f.Has x

/-- Two types one of which has all numbers of the other. -/
def Wider (f g : Format) : Prop := f = g ∨ f.p < g.p ∧ Within f g

theorem Wider.within {f g : Format} (h : Wider f g) : Within f g := by
  rcases h with rfl | h
  · exact ⟨le_rfl, le_rfl, le_rfl⟩
  · exact h.2

theorem promote_p {f : Format} (hf : Ordinary f) : 1 ≤ (promoteSmall f).p ∧ Within f (promoteSmall f) ∧ (promoteSmall f).u ≤ f.u := by
  unfold promoteSmall
  split_ifs with h
  · rw [hf.2 h]
    exact ⟨by decide, ⟨by decide, by decide, by norm_num [binary16, binary32]⟩, by norm_num [Format.u, binary16, binary32]⟩
  · exact ⟨hf.1, ⟨le_rfl, le_rfl, le_rfl⟩, le_rfl⟩

theorem Clear.mono {m m' : ℚ} (h : m' ≤ m) {eps x y : Number} (hc : Clear m eps x y) : Clear m' eps x y := by
  obtain ⟨X, Y, E, h1, h2, h3, h4⟩ := hc
  refine ⟨X, Y, E, h1, h2, h3, lt_of_le_of_lt ?_ h4⟩
  exact mul_le_mul_of_nonneg_left (by linarith) (abs_nonneg _)

/-- The decision for one pair. -/
theorem near_decides {g : Format} (hg : Ordinary g) {eps x y : Number} (hx : g.Has x) (hy : g.Has y) (he : g.Has eps) :
    (near g eps x y = true → Close eps x y) ∧ (Clear g.u eps x y → near g eps x y = true) := by
  obtain ⟨h1, h2, h3⟩ := promote_p hg
  refine ⟨fun h => test_sound h1 (has_within h2 he) h, fun h => ?_⟩
  exact test_complete (has_within h2 hx) (has_within h2 hy) (has_within h2 he) (Clear.mono h3 h)

theorem decides_all {g : Format} (hg : Ordinary g) {eps : Number} (he : g.Has eps) {n : ℕ} {v w : Store Number n} (hv : Of g v) (hw : Of g w) :
    Decides g.u eps ((parts v).zip (parts w)) (some (all (near g eps) v w)) := by
  refine ⟨by simp, ?_, ?_⟩
  · rw [Option.some.injEq, all_iff]
    intro h p hp
    obtain ⟨h1, h2⟩ := List.of_mem_zip (a := p.1) (b := p.2) hp
    exact (near_decides hg (hv _ h1) (hw _ h2) he).1 (h p hp)
  · rw [Option.some.injEq, all_iff]
    intro h p hp
    obtain ⟨h1, h2⟩ := List.of_mem_zip (a := p.1) (b := p.2) hp
    exact (near_decides hg (hv _ h1) (hw _ h2) he).2 (h p hp)

theorem all_congr {n : ℕ} {f g : Number → Number → Bool} {v w : Store Number n} (h : ∀ x ∈ parts v, ∀ y ∈ parts w, f x y = g x y) :
    all f v w = all g v w := by
  rw [Bool.eq_iff_iff, all_iff, all_iff]
  refine forall₂_congr fun p hp => ?_
  obtain ⟨h1, h2⟩ := List.of_mem_zip (a := p.1) (b := p.2) hp
  rw [h _ h1 _ h2]

/-- Vectors of floating-point types, the same or two of which one has all numbers of the other: approx_equal decides, in either order, whether all pairs
of components differ by less than epsilon. -/
theorem C151_vectors {f g : Format} (h : Wider f g) (hg : Ordinary g) {eps : Number} (he : g.Has eps) (h0 : NonNegative eps) {n : ℕ}
    {v w : Store Number n} (hv : Of f v) (hw : Of g w) :
    Decides g.u eps ((parts v).zip (parts w)) (equal (.float f) (.float g) eps v w) ∧
      Decides g.u eps ((parts w).zip (parts v)) (equal (.float g) (.float f) eps w v) := by
  have hv' : Of g v := fun x hx => has_within h.within (hv x hx)
  have ha : assumed eps = true := (assumed_iff eps).2 h0
  rcases h with rfl | ⟨hlt, hw2⟩
  · unfold equal
    simp only [if_true, ha]
    exact ⟨decides_all hg he hv' hw, decides_all hg he hw hv'⟩
  · have hne : f ≠ g := by rintro rfl; exact lt_irrefl _ hlt
    have e1 : equalityType (.float f) (.float g) = some g := by simp [equalityType, higher, hlt.le]
    have e2 : equalityType (.float g) (.float f) = some g := by simp [equalityType, higher, not_le.2 hlt]
    have er := round_has hg.1 he
    constructor
    · unfold equal
      rw [if_neg (by simpa using hne), e1]
      simp only [Option.bind_eq_bind, Option.bind_some, er, ha, if_true]
      rw [all_congr (g := near g eps) fun x hx y hy => by rw [round_has hg.1 (hv' x hx), round_has hg.1 (hw y hy)]]
      exact decides_all hg he hv' hw
    · unfold equal
      rw [if_neg (by simpa using Ne.symm hne), e2]
      simp only [Option.bind_eq_bind, Option.bind_some, er, ha, if_true]
      rw [all_congr (g := near g eps) fun x hx y hy => by rw [round_has hg.1 (hw x hx), round_has hg.1 (hv' y hy)]]
      exact decides_all hg he hw hv'

/-- A `float` and a `double`, less than a thousandth apart. -/
example : Wider binary32 binary64 ∧ Ordinary binary64 ∧
    equal (.float binary32) (.float binary64) (.fin false (1 / 1024)) (.two (.fin false 1) (.fin true 3)) (.two (.fin false (1 + 2 ^ (-30 : ℤ))) (.fin true 3)) =
      some true := by
  exact ⟨.inr ⟨by decide, by decide, by decide, by decide +kernel⟩, ⟨by decide, by decide⟩, by decide +kernel⟩

/-- The order of the two vectors does not matter, for any numbers, infinities and types (of which no two different ones have the same number of bits). -/
theorem C151_symmetric (a b : Scalar) (hd : ∀ f g : Format, a = .float f → b = .float g → f.p = g.p → f = g) {n : ℕ} (eps : Number) (v w : Store Number n) :
    equal a b eps v w = equal b a eps w v := by
  have hall : ∀ (g : Format) (e : Number) (c : Number → Number), all (fun x y => near g e (c x) (c y)) v w = all (fun x y => near g e (c x) (c y)) w v := by
    intro g e c
    rw [all_parts, all_parts, List.zipWith_comm]
    congr 2
    funext x y
    rw [near_eq, near_eq, test_comm]
  have hid := fun g e => hall g e id
  simp only [id] at hid
  unfold equal
  by_cases hab : a = b
  · subst hab
    rw [if_pos rfl, if_pos rfl]
    cases a with
    | int t => rfl
    | float f =>
      dsimp only
      rw [show all (near f eps) v w = all (near f eps) w v from hid f eps]
  · rw [if_neg hab, if_neg (Ne.symm hab)]
    have e : equalityType a b = equalityType b a := by
      cases a with
      | int s => cases b <;> rfl
      | float f => cases b with
        | int t => rfl
        | float g =>
          rcases lt_trichotomy f.p g.p with h | h | h
          · simp [equalityType, higher, h.le, not_le.2 h]
          · exact absurd (congrArg Scalar.float (hd f g rfl rfl h)) hab
          · simp [equalityType, higher, h.le, not_le.2 h]
    rw [e]
    congr 1
    funext type
    rw [hall]

example : equal (.float binary64) (.int ⟨32, true⟩) (.fin false 1) (.one (.inf true)) (.one (.fin false 3)) = some false ∧
    equal (.int ⟨32, true⟩) (.float binary64) (.fin false 1) (.one (.fin false 3)) (.one (.inf true)) = some false := by
  have h : equal (.float binary64) (.int ⟨32, true⟩) (.fin false 1) (.one (.inf true)) (.one (.fin false 3)) = some false := by decide +kernel
  exact ⟨h, C151_symmetric (.float binary64) (.int ⟨32, true⟩) (by simp) _ _ _ ▸ h⟩

/-- A vector of finite numbers is approximately equal to itself, for every epsilon above zero. -/
theorem C151_reflexive_partial {f : Format} (hf : Ordinary f) {eps : Number} {E : ℚ} (he : f.Has eps) (hE : value eps = some E) (h0 : 0 < E) {n : ℕ}
    {v : Store Number n} (hv : Of f v) (hfin : ∀ x ∈ parts v, value x ≠ none) : equal (.float f) (.float f) eps v v = some true := by
  have hn : NonNegative eps := by
    cases eps with
    | nan => simp [value] at hE
    | inf s => simp [value] at hE
    | fin s a => simp only [value, Option.some.injEq] at hE; subst hE; exact h0.le
  refine (C151_vectors (.inl rfl) hf he hn hv hv).1.2.2 fun p hp => ?_
  have hpp : p.1 = p.2 ∧ p.1 ∈ parts v := by
    obtain ⟨i, hi, rfl⟩ := List.mem_iff_getElem.1 hp
    simp
  obtain ⟨X, hX⟩ := Option.ne_none_iff_exists'.1 (hfin _ hpp.2)
  exact ⟨X, X, E, hX, hpp.1 ▸ hX, hE, by simpa using h0⟩

example : equal (.float binary32) (.float binary32) (.fin false (1 / 8)) (.two (.fin false 1) (.fin true 3)) (.two (.fin false 1) (.fin true 3)) = some true := by
  refine C151_reflexive_partial (f := binary32) (eps := .fin false (1 / 8)) ⟨by decide, by decide⟩ ⟨⟨1, -3, by decide, by decide, by norm_num⟩, by decide +kernel⟩ rfl (by norm_num [signed]) ?_ ?_
  · intro x hx
    simp only [parts, List.mem_cons, List.not_mem_nil, or_false] at hx
    rcases hx with rfl | rfl
    · exact ⟨⟨1, 0, by decide, by decide, by norm_num⟩, by decide +kernel⟩
    · exact ⟨⟨3, 0, by decide, by decide, by norm_num⟩, by decide +kernel⟩
  · intro x hx
    simp only [parts, List.mem_cons, List.not_mem_nil, or_false] at hx
    rcases hx with rfl | rfl <;> simp [value]

/-- A vector with an infinite component is not approximately equal to itself, whatever epsilon is (though it is equal to itself, C138): the difference of
the infinities is not a number. -/
theorem C151_reflexive_violated (f : Format) {eps : Number} (h0 : NonNegative eps) {n : ℕ} {v : Store Number n} {s : Bool} (hs : .inf s ∈ parts v) :
    equal (.float f) (.float f) eps v v = some false := by
  unfold equal
  simp only [if_true, (assumed_iff eps).2 h0]
  rw [Option.some.injEq, Bool.eq_false_iff]
  intro h
  rw [all_iff] at h
  obtain ⟨i, hi, hx⟩ := List.mem_iff_getElem.1 hs
  have := h ((parts v)[i], (parts v)[i]) (List.mem_iff_getElem.2 ⟨i, by simpa using hi, by simp⟩)
  rw [hx] at this
  cases s <;> cases eps <;>
    simp [near, Model.FloatVector.Op.eval, Number.sub, Number.negate, Number.add, Format.round, Number.round, Model.Kahan.abs, Model.Kahan.less] at this

example : equal (.float binary32) (.float binary32) (.inf false) (.two (.fin false 1) (.inf true)) (.two (.fin false 1) (.inf true)) = some false :=
  C151_reflexive_violated (s := true) (eps := .inf false) _ rfl (by simp [parts])

/-! ## Zero -/

/-- approx_zero of a vector is true exactly if all components are less than epsilon from zero. -/
theorem C151_zero {f : Format} (hf : Ordinary f) {eps : Number} (he : f.Has eps) (h0 : NonNegative eps) {n : ℕ} {v : Store Number n} (hv : Of f v) :
    ∃ b, zero f eps v = some b ∧ (b = true ↔ ∀ x ∈ parts v, Close eps x (.fin false 0)) := by
  obtain ⟨h1, h2, -⟩ := promote_p hf
  unfold zero
  rw [if_pos ((assumed_iff eps).2 h0)]
  refine ⟨_, rfl, ?_⟩
  rw [all_iff]
  constructor
  · intro h x hx
    obtain ⟨i, hi, rfl⟩ := List.mem_iff_getElem.1 hx
    have := h ((parts v)[i], (parts v)[i]) (List.mem_iff_getElem.2 ⟨i, by simpa using hi, by simp⟩)
    exact test_sound h1 (has_within h2 he) this
  · intro h p hp
    obtain ⟨hx, -⟩ := List.of_mem_zip (a := p.1) (b := p.2) hp
    exact test_exact h1 (has_within h2 (hv _ hx)) (has_within h2 he) (h _ hx)

example : zero binary16 (.fin false (1 / 1024)) (.two (.fin false 0) (.fin true (1 / 2048))) = some true ∧
    zero binary16 (.fin false (1 / 1024)) (.two (.fin false 0) (.fin true (1 / 1024))) = some false := by
  constructor <;> decide +kernel

/-! ## Matrices, quaternions and shapes -/

theorem decides_both {m : ℚ} {eps : Number} {p q : List (Number × Number)} {r s : Option Bool} (hr : Decides m eps p r) (hs : Decides m eps q s) :
    Decides m eps (p ++ q) (both r fun _ => s) := by
  obtain ⟨b, rfl⟩ := Option.ne_none_iff_exists'.1 hr.1
  refine ⟨?_, ?_, ?_⟩
  · cases b
    · simp [both]
    · simpa [both] using hs.1
  · intro h x hx
    cases b
    · simp [both] at h
    · rcases List.mem_append.1 hx with hx | hx
      · exact hr.2.1 rfl x hx
      · exact hs.2.1 (by simpa [both] using h) x hx
  · intro h
    have hb := hr.2.2 fun x hx => h x (List.mem_append_left _ hx)
    rw [hb]
    simpa [both] using hs.2.2 fun x hx => h x (List.mem_append_right _ hx)

theorem decides_fold {ι : Type} {m : ℚ} {eps : Number} {p : ι → List (Number × Number)} {r : ι → Option Bool} (h : ∀ i, Decides m eps (p i) (r i))
    (l : List ι) : Decides m eps (l.flatMap p) (l.foldlM (fun same i => if same then r i else some false) true) := by
  have key : ∀ (l : List ι), (l.foldlM (fun same i => if same then r i else some false) false) = some false := by
    intro l
    induction l with
    | nil => rfl
    | cons i l ih => simpa [List.foldlM_cons] using ih
  induction l with
  | nil => exact ⟨by simp, by simp, fun _ => rfl⟩
  | cons i l ih =>
    have e : ((i :: l).foldlM (fun same i => if same then r i else some false) true) =
        both (r i) fun _ => l.foldlM (fun same i => if same then r i else some false) true := by
      rw [List.foldlM_cons]
      unfold both
      simp only [if_true, Option.bind_eq_bind]
      congr 1
      funext b
      cases b
      · simpa using key l
      · rfl
    rw [e, List.flatMap_cons]
    exact decides_both (h i) ih

/-- The scalars of matrices at the same places. -/
def matrixPairs {R C : ℕ} (m1 m2 : Model.MatrixStore.Mat Number R C) : List (Number × Number) :=
  (List.finRange C).flatMap fun c => (parts (m1 c)).zip (parts (m2 c))

/-- Matrices of any size are approximately equal if their scalars are, with the types as for vectors. -/
theorem C151_matrices {f g : Format} (h : Wider f g) (hg : Ordinary g) {eps : Number} (he : g.Has eps) (h0 : NonNegative eps) {R C : ℕ}
    {m1 m2 : Model.MatrixStore.Mat Number R C} (h1 : ∀ c, Of f (m1 c)) (h2 : ∀ c, Of g (m2 c)) :
    Decides g.u eps (matrixPairs m1 m2) (matrixEqual (.float f) (.float g) eps m1 m2) ∧
      Decides g.u eps (matrixPairs m2 m1) (matrixEqual (.float g) (.float f) eps m2 m1) :=
  ⟨decides_fold (fun c => (C151_vectors h hg he h0 (h1 c) (h2 c)).1) _, decides_fold (fun c => (C151_vectors h hg he h0 (h1 c) (h2 c)).2) _⟩

example : matrixEqual (.float binary32) (.float binary64) (.fin false (1 / 8)) (C := 2) (fun _ => .two (.fin false 1) (.fin true 3))
      (fun c => .two (.fin false 1) (.fin true (if c = 0 then 3 else 25 / 8))) = some false ∧
    matrixEqual (.float binary32) (.float binary64) (.fin false (1 / 8)) (C := 2) (fun _ => .two (.fin false 1) (.fin true 3))
      (fun c => .two (.fin false 1) (.fin true (if c = 0 then 3 else 49 / 16))) = some true := by
  constructor <;> decide +kernel

theorem decides_one {g : Format} (hg : Ordinary g) {eps x y : Number} (hx : g.Has x) (hy : g.Has y) (he : g.Has eps) :
    Decides g.u eps [(x, y)] (some (near g eps x y)) := by
  have := near_decides hg hx hy he
  refine ⟨by simp, ?_, ?_⟩
  · intro h p hp
    rw [List.mem_singleton] at hp
    subst hp
    exact this.1 (by simpa using h)
  · intro h
    rw [this.2 (h (x, y) (by simp))]

/-- Quaternions are approximately equal if their scalar parts are and their vector parts are. -/
theorem C151_quaternions {f g : Format} (h : Wider f g) (hg : Ordinary g) {eps : Number} (he : g.Has eps) (h0 : NonNegative eps)
    {q1 q2 : Quaternion} (h1 : f.Has q1.s ∧ Of f q1.v) (h2 : g.Has q2.s ∧ Of g q2.v) :
    Decides g.u eps ((q1.s, q2.s) :: (parts q1.v).zip (parts q2.v)) (quaternionEqual f g eps q1 q2) ∧
      Decides g.u eps ((q2.s, q1.s) :: (parts q2.v).zip (parts q1.v)) (quaternionEqual g f eps q2 q1) := by
  have hv := C151_vectors h hg he h0 h1.2 h2.2
  have ha : assumed eps = true := (assumed_iff eps).2 h0
  have hs := has_within h.within h1.1
  have d1 := decides_one hg hs h2.1 he
  have d2 := decides_one hg h2.1 hs he
  have r0 := round_has hg.1 he
  have r1 := round_has hg.1 hs
  have r2 := round_has hg.1 h2.1
  rcases h with rfl | ⟨hlt, hw2⟩
  · unfold quaternionEqual
    simp only [if_true, ha]
    exact ⟨decides_both d1 hv.1, decides_both d2 hv.2⟩
  · have hne : f ≠ g := by rintro rfl; exact lt_irrefl _ hlt
    have e1 : higher f g = g := by simp [higher, hlt.le]
    have e2 : higher g f = g := by simp [higher, not_le.2 hlt]
    unfold quaternionEqual
    rw [if_neg hne, if_neg (Ne.symm hne), e1, e2]
    simp only [r0, r1, r2, ha, if_true]
    exact ⟨decides_both d1 hv.1, decides_both d2 hv.2⟩

example : quaternionEqual binary32 binary64 (.fin false (1 / 8)) ⟨.fin false 1, .three (.fin false 0) (.fin false 0) (.fin false 1)⟩
    ⟨.fin false (17 / 16), .three (.fin false 0) (.fin false 0) (.fin false 1)⟩ = some true := by
  decide +kernel

/-- Line segments, rays and boxes (two vectors), triangles (three), oriented boxes (two and a matrix). -/
theorem C151_shapes {f g : Format} (h : Wider f g) (hg : Ordinary g) {eps : Number} (he : g.Has eps) (h0 : NonNegative eps) :
    (∀ {a b a' b' : Store Number 3}, Of f a → Of f b → Of g a' → Of g b' →
      Decides g.u eps ((parts a).zip (parts a') ++ (parts b).zip (parts b')) (twoEqual f g eps a b a' b')) ∧
    (∀ {p q : Fin 3 → Store Number 3}, (∀ i, Of f (p i)) → (∀ i, Of g (q i)) →
      Decides g.u eps ((parts (p 0)).zip (parts (q 0)) ++ ((parts (p 1)).zip (parts (q 1)) ++ (parts (p 2)).zip (parts (q 2)))) (triangleEqual f g eps p q)) ∧
    (∀ {c e c' e' : Store Number 3} {x x' : Model.MatrixStore.Mat Number 3 3}, Of f c → Of f e → (∀ i, Of f (x i)) → Of g c' → Of g e' → (∀ i, Of g (x' i)) →
      Decides g.u eps ((parts c).zip (parts c') ++ ((parts e).zip (parts e') ++ matrixPairs x x')) (orientedEqual f g eps c e x c' e' x')) := by
  refine ⟨fun h1 h2 h3 h4 => ?_, fun h1 h2 => ?_, fun h1 h2 h3 h4 h5 h6 => ?_⟩
  · exact decides_both (C151_vectors h hg he h0 h1 h3).1 (C151_vectors h hg he h0 h2 h4).1
  · exact decides_both (C151_vectors h hg he h0 (h1 0) (h2 0)).1
      (decides_both (C151_vectors h hg he h0 (h1 1) (h2 1)).1 (C151_vectors h hg he h0 (h1 2) (h2 2)).1)
  · exact decides_both (C151_vectors h hg he h0 h1 h4).1 (decides_both (C151_vectors h hg he h0 h2 h5).1 (C151_matrices h hg he h0 h3 h6).1)

example : twoEqual binary32 binary32 (.fin false (1 / 8)) (.three (.fin false 0) (.fin false 0) (.fin false 1)) (.three (.fin false 0) (.fin false 0) (.fin false 1))
    (.three (.fin false 0) (.fin false 0) (.fin false 1)) (.three (.fin false 0) (.fin false 0) (.fin true 1)) = some false := by
  decide +kernel

/-- Planes and spheres (a vector and a scalar) of the same type. -/
theorem C151_plane_sphere_partial (ext : Format) (s : Std) (hg : Ordinary (s.format ext)) {eps : Number} (he : (s.format ext).Has eps) (h0 : NonNegative eps)
    {v v' : Store Number 3} {x x' : Number} (hv : Of (s.format ext) v) (hv' : Of (s.format ext) v') (hx : (s.format ext).Has x) (hx' : (s.format ext).Has x') :
    Decides (s.format ext).u eps ((parts v).zip (parts v') ++ [(x, x')]) (vectorScalarEqual ext s s eps v x v' x') := by
  have ho : overload [s, s, s] = some s := by cases s <;> decide
  have ha : assumed eps = true := (assumed_iff eps).2 h0
  unfold vectorScalarEqual scalarCall
  simp only [ite_self, ho, Option.bind_some, ha, if_true]
  exact decides_both (C151_vectors (.inl rfl) hg he h0 hv hv').1 (decides_one hg hx hx' he)

example : vectorScalarEqual binary64 .float .float (.fin false (1 / 8)) (.three (.fin false 0) (.fin false 0) (.fin false 1)) (.fin false 2)
    (.three (.fin false 0) (.fin false 0) (.fin false 1)) (.fin false 3) = some false := by
  decide +kernel

/-- Planes and spheres of different types cannot be compared at all, though the functions are declared for any two: the comparison of the scalars is
ambiguous, and a program that calls them does not compile. -/
theorem C151_plane_sphere_violated (ext : Format) (s t : Std) (h : s ≠ t) (eps : Number) (v v' : Store Number 3) (x x' : Number) :
    vectorScalarEqual ext s t eps v x v' x' = none := by
  have ho : overload [s, t, if s.rank ≤ t.rank then t else s] = none := by
    cases s <;> cases t <;> first | exact absurd rfl h | decide
  unfold vectorScalarEqual
  rw [ho]; rfl

/-- Matrices, quaternions, planes and boxes are approximately zero exactly if all their scalars are. -/
theorem C151_zero_shapes {f : Format} (hf : Ordinary f) {eps : Number} (he : f.Has eps) (h0 : NonNegative eps) :
    (∀ {R C : ℕ} {m : Model.MatrixStore.Mat Number R C}, (∀ c, Of f (m c)) →
      ∃ b, matrixZero f eps m = some b ∧ (b = true ↔ ∀ c, ∀ x ∈ parts (m c), Close eps x (.fin false 0))) ∧
    (∀ {q : Quaternion}, f.Has q.s → Of f q.v →
      ∃ b, quaternionZero f eps q = some b ∧ (b = true ↔ ∀ x ∈ q.s :: parts q.v, Close eps x (.fin false 0))) ∧
    (∀ {n : Store Number 3} {d : Number}, Of f n → f.Has d →
      ∃ b, planeZero f eps n d = some b ∧ (b = true ↔ ∀ x ∈ parts n ++ [d], Close eps x (.fin false 0))) ∧
    (∀ {v w : Store Number 3}, Of f v → Of f w →
      ∃ b, twoZero f eps v w = some b ∧ (b = true ↔ ∀ x ∈ parts v ++ parts w, Close eps x (.fin false 0))) := by
  have ha : assumed eps = true := (assumed_iff eps).2 h0
  obtain ⟨p1, p2, -⟩ := promote_p hf
  have one : ∀ {x : Number}, f.Has x → (near f eps x (.fin false 0) = true ↔ Close eps x (.fin false 0)) := fun hx =>
    ⟨fun h => test_sound p1 (has_within p2 he) h, fun h => test_exact p1 (has_within p2 hx) (has_within p2 he) h⟩
  refine ⟨fun {R C m} hm => ?_, fun {q} h1 h2 => ?_, fun {n d} h1 h2 => ?_, fun {v w} h1 h2 => ?_⟩
  · have key : ∀ (l : List (Fin C)) (b0 : Bool), ∃ b, l.foldlM (fun same i => if same then zero f eps (m i) else some false) b0 = some b ∧
        (b = true ↔ b0 = true ∧ ∀ c ∈ l, ∀ x ∈ parts (m c), Close eps x (.fin false 0)) := by
      intro l
      induction l with
      | nil => intro b0; exact ⟨b0, rfl, by simp⟩
      | cons c l ih =>
        intro b0
        rw [List.foldlM_cons]
        obtain ⟨z, hz, hz2⟩ := C151_zero hf he h0 (hm c)
        cases b0
        · obtain ⟨b, hb, hb2⟩ := ih false
          exact ⟨b, by simpa using hb, by rw [hb2]; simp⟩
        · obtain ⟨b, hb, hb2⟩ := ih z
          refine ⟨b, by simpa [hz] using hb, ?_⟩
          rw [hb2, hz2]
          simp
    obtain ⟨b, hb, hb2⟩ := key (List.finRange C) true
    exact ⟨b, hb, by rw [hb2]; simp⟩
  · obtain ⟨z, hz, hz2⟩ := C151_zero hf he h0 h2
    refine ⟨near f eps q.s (.fin false 0) && z, ?_, ?_⟩
    · unfold quaternionZero both
      simp only [ha, if_true, Option.bind_some, hz]
      cases near f eps q.s (.fin false 0) <;> simp
    · rw [Bool.and_eq_true, one h1, hz2]; simp
  · obtain ⟨z, hz, hz2⟩ := C151_zero hf he h0 h1
    refine ⟨z && near f eps d (.fin false 0), ?_, ?_⟩
    · unfold planeZero both
      simp only [ha, if_true, Option.bind_some, hz]
      cases z <;> simp
    · rw [Bool.and_eq_true, one h2, hz2]
      constructor
      · rintro ⟨h3, h4⟩ x hx
        rcases List.mem_append.1 hx with hx | hx
        · exact h3 x hx
        · rw [List.mem_singleton] at hx; exact hx ▸ h4
      · intro h; exact ⟨fun x hx => h x (by simp [hx]), h d (by simp)⟩
  · obtain ⟨y, hy, hy2⟩ := C151_zero hf he h0 h1
    obtain ⟨z, hz, hz2⟩ := C151_zero hf he h0 h2
    refine ⟨y && z, ?_, ?_⟩
    · unfold twoZero both
      simp only [Option.bind_some, hy, hz]
      cases y <;> simp
    · rw [Bool.and_eq_true, hy2, hz2]
      constructor
      · rintro ⟨h3, h4⟩ x hx
        rcases List.mem_append.1 hx with hx | hx
        · exact h3 x hx
        · exact h4 x hx
      · intro h; exact ⟨fun x hx => h x (by simp [hx]), fun x hx => h x (by simp [hx])⟩

example : matrixZero binary32 (.fin false 1) (C := 2) (fun c => .two (.fin true (1 / 2)) (.fin false (c : ℕ))) = some false := by decide +kernel

/-- Whether a sphere is approximately zero cannot be asked: the function does not compile. -/
theorem C151_sphere_zero_violated (f : Format) (eps : Number) (c : Store Number 3) (r : Number) : sphereZero f eps c r = none := rfl

/-! ## A vector of integers -/

/-- An integer as a number. -/
def ofInt (i : ℤ) : Number := .fin (decide (i < 0)) |(i : ℚ)|

theorem ofInt_value (i : ℤ) : value (ofInt i) = some (i : ℚ) := by
  unfold ofInt value
  have := signed_abs (i : ℚ)
  simpa using this

theorem ofInt_has {g : Format} (hp : 1 ≤ g.p) (he : g.emin ≤ 0) (hg : 2 ^ g.p ≤ g.greatest) {i : ℤ} (hi : |i| ≤ 2 ^ g.p) : g.Has (ofInt i) := by
  refine R_has hp (abs_nonneg _) ⟨|i|, 0, by rwa [abs_abs], by omega, by simp⟩ ?_
  refine le_trans ?_ hg
  exact_mod_cast hi

/-- A vector of floating-point numbers and one of integers, none of which is above `2^p`: epsilon is rounded to the type of the comparison, which is the
floating-point type (`float` for `half`), whose precision is `p`. -/
theorem C151_integers_partial {f g : Format} (hf : Ordinary f) (hfg : g = promoteSmall f) (hm : g.emin ≤ 0) (hg : 2 ^ g.p ≤ g.greatest) (t : Ty)
    {eps : Number} (hs : ∀ s a, eps = .fin s a → 0 ≤ a) (h0 : NonNegative (g.round eps)) {n : ℕ} {v w : Store Number n} (hv : Of f v) {is : List ℤ}
    (hw : parts w = is.map ofInt) (hi : ∀ i ∈ is, |i| ≤ 2 ^ g.p) :
    Decides g.u (g.round eps) ((parts v).zip (parts w)) (equal (.float f) (.int t) eps v w) := by
  obtain ⟨p1, p2, -⟩ := promote_p hf
  rw [← hfg] at p1 p2
  have hv' : Of g v := fun x hx => has_within p2 (hv x hx)
  have hw' : Of g w := by
    intro x hx
    rw [hw, List.mem_map] at hx
    obtain ⟨i, hi2, rfl⟩ := hx
    exact ofInt_has p1 hm hg (hi i hi2)
  have ho : Ordinary g := by
    refine ⟨p1, fun h => ?_⟩
    exfalso
    rw [hfg] at h
    unfold promoteSmall at h
    split_ifs at h with h2
    · exact absurd h (by decide)
    · exact h2 h
  unfold equal
  rw [if_neg (by simp), show equalityType (.float f) (.int t) = some g by rw [hfg]; rfl]
  simp only [Option.bind_eq_bind, Option.bind_some, (assumed_iff _).2 h0, if_true]
  rw [all_congr (g := near g (g.round eps)) fun x hx y hy => by rw [round_has p1 (hv' x hx), round_has p1 (hw' y hy)]]
  exact decides_all ho (round_is p1 hs) hv' hw'

example : equal (.float binary32) (.int ⟨32, true⟩) (.fin false (1 / 8)) (.two (.fin false (17 / 16)) (.fin true 3)) (.two (ofInt 1) (ofInt (-3))) = some true := by
  decide +kernel

/-- Greater integers are rounded: 16777216 and the integer 16777217 are reported to differ by less than a half. -/
theorem C151_integers_violated :
    equal (.float binary32) (.int ⟨32, true⟩) (.fin false (1 / 2)) (.one (.fin false 16777216)) (.one (ofInt 16777217)) = some true ∧
      ¬Close (.fin false (1 / 2)) (.fin false 16777216) (ofInt 16777217) := by
  refine ⟨by decide +kernel, ?_⟩
  rintro ⟨X, Y, hX, hY, h⟩
  rw [ofInt_value] at hY
  simp only [value, signed, Option.some.injEq, Bool.false_eq_true, if_false] at hX hY
  subst hX hY
  rcases h with h | ⟨E, hE, h⟩
  · cases h
  · simp only [value, signed, Option.some.injEq, Bool.false_eq_true, if_false] at hE
    subst hE
    norm_num at h

/-- The default epsilon of a comparison with integers is that of `double`, about `10⁻¹⁴`, also for vectors of `float`: for integers other than zero
nothing but equality is approximate equality then. -/
theorem C151_integers_exact (t : Ty) {eps : Number} (hs : ∀ s a, eps = .fin s a → 0 ≤ a) {E : ℚ} (hE : value (binary32.round eps) = some E) (h0 : 0 < E)
    (h1 : E ≤ 1 / 2 ^ 24) {n : ℕ} {v w : Store Number n} (hv : Of binary32 v) {is : List ℤ} (hw : parts w = is.map ofInt)
    (hi : ∀ i ∈ is, i ≠ 0 ∧ |i| ≤ 2 ^ 24) :
    equal (.float binary32) (.int t) eps v w = some true ↔ (parts v).map value = is.map fun i : ℤ => some (i : ℚ) := by
  have hn : NonNegative (binary32.round eps) := by
    cases h : binary32.round eps with
    | nan => rw [h] at hE; simp [value] at hE
    | inf s => rw [h] at hE; simp [value] at hE
    | fin s a => rw [h] at hE; simp only [value, Option.some.injEq] at hE; subst hE; exact h0.le
  have hd := C151_integers_partial (f := binary32) (g := binary32) ⟨by decide, by decide⟩ rfl (by decide) (by decide +kernel) t hs hn hv hw
    (fun i h => (hi i h).2)
  have hlen : (parts v).length = is.length := by
    have := congrArg List.length hw
    rw [List.length_map, parts_length] at this
    rw [parts_length, this]
  have hpair : ((parts v).map value = is.map fun i : ℤ => some (i : ℚ)) ↔ ∀ p ∈ (parts v).zip (parts w), value p.1 = value p.2 := by
    have e : (is.map fun i : ℤ => some (i : ℚ)) = (parts w).map value := by
      rw [hw, List.map_map]
      exact List.map_congr_left fun i _ => (ofInt_value i).symm
    rw [e]
    constructor
    · intro h p hp
      obtain ⟨k, hk, rfl⟩ := List.mem_iff_getElem.1 hp
      have h2 : k < (parts v).length ∧ k < (parts w).length := by simpa using hk
      have := congrArg (fun l => l[k]?) h
      simpa [h2.1, h2.2] using this
    · intro h
      apply List.ext_getElem
      · simp [parts_length]
      · intro k hk1 hk2
        rw [List.getElem_map, List.getElem_map]
        rw [List.length_map] at hk1 hk2
        exact h ((parts v)[k], (parts w)[k]) (List.mem_iff_getElem.2 ⟨k, by simpa using ⟨hk1, hk2⟩, by simp⟩)
  rw [hpair]
  constructor
  · intro h p hp
    obtain ⟨X, Y, hX, hY, hc⟩ := hd.2.1 h p hp
    obtain ⟨m1, m2⟩ := List.of_mem_zip (a := p.1) (b := p.2) hp
    rw [hw, List.mem_map] at m2
    obtain ⟨i, hi2, e⟩ := m2
    obtain ⟨hi0, hile⟩ := hi i hi2
    rw [← e, ofInt_value, Option.some.injEq] at hY
    rw [hX, ← e, ofInt_value, Option.some.injEq]
    have hlt : |Y - X| < E := by
      rcases hc with hc | ⟨E', hE', hc⟩
      · rw [hc] at hE; simp [value] at hE
      · rw [hE] at hE'; rw [Option.some.inj hE']; exact hc
    subst hY
    obtain ⟨⟨m, k, hm, hk, hXe⟩, -⟩ := has_R (hv _ m1) hX
    have hlt2 : |(i : ℚ) - X| < 1 / 2 ^ 24 := hlt.trans_le h1
    have hm24 : |m| ≤ 2 ^ 24 := hm
    rcases lt_or_ge k (-24) with hk2 | hk2
    · exfalso
      have hXs : |X| ≤ 1 / 2 := by
        rw [hXe, abs_mul, abs_of_pos (show (0 : ℚ) < 2 ^ k by positivity)]
        have a1 : |(m : ℚ)| ≤ 2 ^ 24 := by exact_mod_cast hm24
        have a2 : (2 : ℚ) ^ k ≤ 2 ^ (-25 : ℤ) := zpow_le_zpow_right₀ (by norm_num) (by omega)
        calc |(m : ℚ)| * 2 ^ k ≤ 2 ^ 24 * 2 ^ (-25 : ℤ) := mul_le_mul a1 a2 (by positivity) (by norm_num)
          _ = 1 / 2 := by norm_num
      have a3 : (1 : ℚ) ≤ |(i : ℚ)| := by exact_mod_cast Int.one_le_abs hi0
      have a4 := abs_sub_abs_le_abs_sub (i : ℚ) X
      have : (1 : ℚ) / 2 ^ 24 < 1 / 2 := by norm_num
      linarith
    · obtain ⟨d, hdd⟩ := zpow_diff k (-24) hk2
      have e2 : (i : ℚ) - X = ((i * 2 ^ 24 - m * 2 ^ d : ℤ) : ℚ) * 2 ^ (-24 : ℤ) := by
        rw [hXe, hdd]
        push_cast
        have : (2 : ℚ) ^ 24 * 2 ^ (-24 : ℤ) = 1 := by norm_num
        linear_combination (-(i : ℚ)) * this
      rw [e2, abs_mul, abs_of_pos (show (0 : ℚ) < 2 ^ (-24 : ℤ) by positivity)] at hlt2
      have h3 : |((i * 2 ^ 24 - m * 2 ^ d : ℤ) : ℚ)| < 1 := by
        have : (2 : ℚ) ^ (-24 : ℤ) = 1 / 2 ^ 24 := by norm_num
        rw [this] at hlt2
        by_contra hc
        push Not at hc
        have := mul_le_mul_of_nonneg_right hc (show (0 : ℚ) ≤ 1 / 2 ^ 24 by norm_num)
        linarith
      have h4 : |i * 2 ^ 24 - m * 2 ^ d| < 1 := by exact_mod_cast h3
      rw [Int.abs_lt_one_iff] at h4
      rw [h4] at e2
      simp only [Int.cast_zero, zero_mul] at e2
      linarith
  · intro h
    refine hd.2.2 fun p hp => ?_
    obtain ⟨m1, m2⟩ := List.of_mem_zip (a := p.1) (b := p.2) hp
    rw [hw, List.mem_map] at m2
    obtain ⟨i, hi2, e⟩ := m2
    have hY : value p.2 = some (i : ℚ) := by rw [← e, ofInt_value]
    exact ⟨i, i, E, by rw [h p hp, hY], hY, hE, by simpa using h0⟩

/-- The `float` next to one is not approximately one. -/
example : equal (.float binary32) (.int ⟨32, true⟩) (.fin false (1 / 10 ^ 14)) (.one (.fin false (1 + 1 / 2 ^ 23))) (.one (ofInt 1)) = some false ∧
    ∃ E, value (binary32.round (.fin false (1 / 10 ^ 14))) = some E ∧ 0 < E ∧ E ≤ 1 / 2 ^ 24 := by
  refine ⟨by decide +kernel, (value (binary32.round (.fin false (1 / 10 ^ 14)))).get (by decide +kernel), by simp, ?_, ?_⟩ <;> decide +kernel

end Verif.Props.Approx
