import Verif.Props.Meta
import Verif.Proofs.MetaNumbers
/-! # Signedness and rank of types -/
namespace Verif.Props.MetaNumbers
open Verif.Spec.CppTypes Verif.Model.Meta Verif.Proofs.Meta Verif.Proofs.MetaNumbers

/-- C169: the signed equivalent of an integer, of `char` and of `wchar_t` is a signed integral type of the same size, the unsigned equivalent of these and
of the other characters is an unsigned one; a floating-point number is its own signed equivalent. Qualifiers and references are kept. -/
theorem C169_equivalent (P : Platform) (k : Ref) (q : CV) (b : Base) :
    (b.Integer ∨ b = .char ∨ b = .wchar →
      ∃ s, makeSigned P (make k q (.base {} b)) = make k q (.base {} s) ∧ (s.Integer ∨ s = .wchar) ∧ s.Negative P ∧ s.bits P = b.bits P) ∧
    (b.Integer ∨ b.Character →
      ∃ u, makeUnsigned P (make k q (.base {} b)) = make k q (.base {} u) ∧ (u.Integer ∨ u.Character) ∧ ¬ u.Negative P ∧ u.bits P = b.bits P) ∧
    (b.Floating → makeSigned P (make k q (.base {} b)) = make k q (.base {} b)) := by
  refine ⟨fun h => ⟨signedBase P b, ?_, ?_⟩, fun h => ⟨unsignedBase P b, ?_, ?_⟩, fun h => ?_⟩
  · refine sign_make _ k q b (.inr fun q' e => ?_)
    cases e
    simp [Base.Integer] at h
  · simp only [Base.Integer, List.mem_cons, List.not_mem_nil, or_false] at h
    rcases P with ⟨c, w, x⟩
    rcases h with (rfl | rfl | rfl | rfl | rfl | rfl | rfl | rfl | rfl | rfl | rfl | rfl) | rfl | rfl <;> cases w <;> cases x <;>
      simp [signedBase, signedInteger, Base.Integer, Base.Negative, Base.bits, Base.Floating]
  · refine sign_make _ k q b (.inr fun q' e => ?_)
    cases e
    simp [Base.Integer, Base.Character] at h
  · simp only [Base.Integer, Base.Character, List.mem_cons, List.not_mem_nil, or_false] at h
    rcases P with ⟨c, w, x⟩
    rcases h with (rfl | rfl | rfl | rfl | rfl | rfl | rfl | rfl | rfl | rfl | rfl | rfl) | rfl | rfl | rfl | rfl | rfl <;> cases w <;> cases x <;>
      simp [unsignedBase, unsignedInteger, Base.Integer, Base.Negative, Base.bits, Base.Floating, Base.Character]
  · have : signedBase P b = b := by
      simp only [Base.Floating, List.mem_cons, List.not_mem_nil, or_false] at h
      rcases h with rfl | rfl | rfl | rfl | rfl | rfl | rfl <;> rfl
    have e := sign_make (signedBase P) k q b (.inr fun q' e => by
      cases e
      simp [Base.Floating] at h)
    rw [this] at e
    exact e

example (P : Platform) : makeUnsigned P (.lref (.base ⟨true, false⟩ .long)) = .lref (.base ⟨true, false⟩ .ulong) := rfl

/-- C169: for integers the two are inverse to each other, and a type that has the sign already is kept. -/
theorem C169_inverse (P : Platform) (k : Ref) (q : CV) (b : Base) (h : b.Integer) :
    let t := make k q (.base {} b)
    makeSigned P (makeUnsigned P t) = makeSigned P t ∧ makeUnsigned P (makeSigned P t) = makeUnsigned P t ∧
      (isSigned P t = true → makeSigned P t = t) ∧ (isUnsigned P t = true → makeUnsigned P t = t) := by
  have nv : ∀ b : Base, b.Integer → ∀ q', Ty.base {} b ≠ .base q' .void := by
    intro b h q' e
    cases e
    simp [Base.Integer] at h
  have hi : ∀ b : Base, b.Integer → (unsignedBase P b).Integer ∧ (signedBase P b).Integer ∧ signedBase P (unsignedBase P b) = signedBase P b ∧
      unsignedBase P (signedBase P b) = unsignedBase P b ∧ (b.Negative P → signedBase P b = b) ∧ (¬ b.Negative P → unsignedBase P b = b) ∧
      b.Valid ∧ b.stored = b := by
    intro b h
    simp only [Base.Integer, List.mem_cons, List.not_mem_nil, or_false] at h
    rcases h with rfl | rfl | rfl | rfl | rfl | rfl | rfl | rfl | rfl | rfl | rfl | rfl <;>
      simp [unsignedBase, signedBase, Base.Integer, Base.Negative, Base.Floating, Base.Valid, Base.stored]
  have s : ∀ b : Base, b.Integer → makeSigned P (make k q (.base {} b)) = make k q (.base {} (signedBase P b)) :=
    fun b h => sign_make _ k q b (.inr (nv b h))
  have u : ∀ b : Base, b.Integer → makeUnsigned P (make k q (.base {} b)) = make k q (.base {} (unsignedBase P b)) :=
    fun b h => sign_make _ k q b (.inr (nv b h))
  obtain ⟨h1, h2, h3, h4, h5, h6, h7, h8⟩ := hi b h
  have n := Meta.C168_numbers P k q b h7 (.inr (nv b h))
  intro t
  refine ⟨?_, ?_, fun e => ?_, fun e => ?_⟩
  · rw [u b h, s b h, s _ h1, h3]
  · rw [u b h, s b h, u _ h2, h4]
  · have := n.2.1.1 e
    rw [h8] at this
    rw [s b h, h5 this]
  · have := (n.2.2.1.1 e).2
    rw [h8] at this
    rw [u b h, h6 this]

example (P : Platform) : makeSigned P (.base {} .ushort) = .base {} .short ∧ Base.Integer .ushort := ⟨rfl, by simp [Base.Integer]⟩

/-- C169: setting the sign gives the sign asked for, and copying it that of the other type; for integers, of the same size, qualifiers and reference. -/
theorem C169_copy (P : Platform) (k : Ref) (q : CV) (b : Base) (h : b.Integer) (c : Bool) (from' : Ty) :
    let t := make k q (.base {} b)
    isSigned P (setSigned P t c) = c ∧ isUnsigned P (setSigned P t c) = !c ∧ isUnsigned P (setUnsigned P t c) = c ∧
      isSigned P (copySigned P t from') = isSigned P from' ∧ isUnsigned P (copyUnsigned P t from') = isUnsigned P from' ∧
      ∃ s u, setSigned P t c = make k q (.base {} s) ∧ setUnsigned P t c = make k q (.base {} u) ∧ s.Integer ∧ u.Integer ∧ s.bits P = b.bits P ∧
        u.bits P = b.bits P := by
  have nv : ∀ b : Base, b.Integer → ∀ q', Ty.base {} b ≠ .base q' .void := by
    intro b h q' e
    cases e
    simp [Base.Integer] at h
  have hi : ∀ b : Base, b.Integer → (unsignedBase P b).Integer ∧ (signedBase P b).Integer ∧ (signedBase P b).Negative P ∧
      ¬ (unsignedBase P b).Negative P ∧ b.Valid ∧ b.stored = b ∧ (signedBase P b).bits P = b.bits P ∧ (unsignedBase P b).bits P = b.bits P := by
    intro b h
    simp only [Base.Integer, List.mem_cons, List.not_mem_nil, or_false] at h
    rcases h with rfl | rfl | rfl | rfl | rfl | rfl | rfl | rfl | rfl | rfl | rfl | rfl <;>
      simp [unsignedBase, signedBase, Base.Integer, Base.Negative, Base.Floating, Base.Valid, Base.stored, Base.bits]
  have s : ∀ b : Base, b.Integer → makeSigned P (make k q (.base {} b)) = make k q (.base {} (signedBase P b)) :=
    fun b h => sign_make _ k q b (.inr (nv b h))
  have u : ∀ b : Base, b.Integer → makeUnsigned P (make k q (.base {} b)) = make k q (.base {} (unsignedBase P b)) :=
    fun b h => sign_make _ k q b (.inr (nv b h))
  obtain ⟨h1, h2, h3, h4, h5, h6, h7, h8⟩ := hi b h
  have tr : ∀ b : Base, b.Integer → (isSigned P (make k q (.base {} b)) = true ↔ b.Negative P) ∧
      (isUnsigned P (make k q (.base {} b)) = true ↔ ¬ b.Negative P) := by
    intro b h
    have i := hi b h
    have n := Meta.C168_numbers P k q b i.2.2.2.2.1 (.inr (nv b h))
    rw [n.2.1, n.2.2.1, i.2.2.2.2.2.1]
    exact ⟨Iff.rfl, fun x => x.2, fun x => ⟨.inr (.inr h), x⟩⟩
  have ss : isSigned P (makeSigned P (make k q (.base {} b))) = true ∧ isUnsigned P (makeSigned P (make k q (.base {} b))) = false := by
    rw [s b h]
    exact ⟨(tr _ h2).1.2 h3, Bool.eq_false_iff.2 fun x => (tr _ h2).2.1 x h3⟩
  have uu : isSigned P (makeUnsigned P (make k q (.base {} b))) = false ∧ isUnsigned P (makeUnsigned P (make k q (.base {} b))) = true := by
    rw [u b h]
    exact ⟨Bool.eq_false_iff.2 fun x => h4 ((tr _ h1).1.1 x), (tr _ h1).2.2 h4⟩
  intro t
  have c1 : ∀ c, isSigned P (setSigned P t c) = c := by
    intro c
    cases c
    · exact uu.1
    · exact ss.1
  have c2 : ∀ c, isUnsigned P (setSigned P t c) = !c := by
    intro c
    cases c
    · exact uu.2
    · exact ss.2
  have c3 : ∀ c, isUnsigned P (setUnsigned P t c) = c := by
    intro c
    cases c
    · exact ss.2
    · exact uu.2
  refine ⟨c1 c, c2 c, c3 c, c1 _, c3 _, ?_⟩
  cases c
  · exact ⟨_, _, u b h, s b h, h1, h2, h8, h7⟩
  · exact ⟨_, _, s b h, u b h, h2, h1, h7, h8⟩

example (P : Platform) : copySigned P (.base {} .uint) (.base {} .float) = .base {} .int := rfl

/-- C169: the sign of a vector or a matrix is that of its elements. -/
theorem C169_elements (P : Platform) (k : Ref) (q : CV) (s s' : Base) (n m : ℕ) :
    (makeSigned P (.base {} s) = .base {} s' →
      makeSigned P (make k q (.base {} (.vec s n))) = make k q (.base {} (.vec s' n)) ∧
      makeSigned P (make k q (.base {} (.mat s n m))) = make k q (.base {} (.mat s' n m))) ∧
    (makeUnsigned P (.base {} s) = .base {} s' →
      makeUnsigned P (make k q (.base {} (.vec s n))) = make k q (.base {} (.vec s' n)) ∧
      makeUnsigned P (make k q (.base {} (.mat s n m))) = make k q (.base {} (.mat s' n m))) ∧
    makeSigned P (make k q (.base {} (.quat s))) = make k q (.base {} (.quat s)) := by
  refine ⟨fun h => ?_, fun h => ?_, sign_make _ k q _ (.inr fun q' e => by cases e)⟩
  · have : signedBase P s = s' := by
      have e : Ty.base {} (signedBase P s) = .base {} s' := h
      injection e
    rw [← this]
    exact ⟨sign_make _ k q _ (.inr fun q' e => by cases e), sign_make _ k q _ (.inr fun q' e => by cases e)⟩
  · have : unsignedBase P s = s' := by
      have e : Ty.base {} (unsignedBase P s) = .base {} s' := h
      injection e
    rw [← this]
    exact ⟨sign_make _ k q _ (.inr fun q' e => by cases e), sign_make _ k q _ (.inr fun q' e => by cases e)⟩

example (P : Platform) : makeSigned P (.lref (.base {} (.vec .uchar 3))) = .lref (.base {} (.vec .schar 3)) := rfl

/-- C169: there is a signed and an unsigned integer of 8, 16, 32, 64 and 128 bits, it has that size and sign, and there is none of any other size. -/
theorem C169_sized (P : Platform) (n : ℕ) :
    (n ∈ [8, 16, 32, 64, 128] →
      ∃ s u, signedInteger n = some s ∧ unsignedInteger n = some u ∧ s.Integer ∧ u.Integer ∧ s.Negative P ∧ ¬ u.Negative P ∧ s.bits P = n ∧
        u.bits P = n) ∧
    (n ∉ [8, 16, 32, 64, 128] → signedInteger n = none ∧ unsignedInteger n = none) := by
  refine ⟨fun h => ?_, fun h => ?_⟩
  · simp only [List.mem_cons, List.not_mem_nil, or_false] at h
    rcases h with rfl | rfl | rfl | rfl | rfl <;>
      simp [signedInteger, unsignedInteger, Base.Integer, Base.Negative, Base.Floating, Base.bits]
  · simp only [List.mem_cons, List.not_mem_nil, or_false, not_or] at h
    simp [signedInteger, unsignedInteger, h]

example : signedInteger 16 = some .short ∧ signedInteger 24 = none := by decide

/-- C169 is violated: the characters `char8_t`, `char16_t` and `char32_t` are integral types, but they have no signed equivalent: `make_signed` of these
is `void`, although `make_unsigned` of these exists. -/
theorem C169_violated :
    ¬ ∀ (P : Platform) (b : Base), b.Character →
      ∃ s, makeSigned P (.base {} b) = .base {} s ∧ s.Negative P ∧ s.bits P = b.bits P := by
  intro h
  obtain ⟨s, e, hn, -⟩ := h ⟨true, true, true⟩ .char16 (by simp [Base.Character])
  have : s = .void := by
    have e' : Ty.base {} .void = .base {} s := e
    injection e' with _ e'
    exact e'.symm
  subst this
  simp [Base.Negative, Base.Floating] at hn

/-! ## The highest-ranked type -/

/-- C171: the highest-ranked of standard arithmetic types is a type that is promoted to the type of a sum of values of all of them. If one of the types
is not smaller than `int`, it is that type itself. -/
theorem C171_sum (P : Platform) (l : List Base) (xs : List Arith) (hl : l ≠ []) (h : l.map (promotion P) = xs.map some) :
    ∃ h z, highestRanked P l = some h ∧ z.IsSum xs ∧ promotion P h = some z ∧ ((∃ x : Arith, x.type ∈ l) → h = z.type) := by
  have main : ∀ (l : List Base) (xs : List Arith), l ≠ [] → l.map (promotion P) = xs.map some →
      ∃ h z, highestRanked P l = some h ∧ z.IsSum xs ∧ promotion P h = some z ∧ (h = z.type ∨ ∀ b ∈ l, ∀ x : Arith, b ≠ x.type) := by
    intro l
    induction l with
    | nil => exact fun _ h => absurd rfl h
    | cons a l ih =>
      intro xs _ h
      cases xs with
      | nil => simp at h
      | cons x xs =>
        simp only [List.map_cons, List.cons.injEq] at h
        have hx : ∀ y : Arith, a = y.type → y = x := by
          rintro y rfl
          have := h.1
          rw [promotion_type] at this
          injection this
        cases l with
        | nil =>
          obtain rfl : xs = [] := by simpa using h.2.symm
          refine ⟨a, x, rfl, ⟨by simpa using below_refl x, fun w hw => hw x (by simp)⟩, h.1, ?_⟩
          by_cases e : a = x.type
          · exact .inl e
          · right
            intro b hb y ey
            obtain rfl : b = a := by simpa using hb
            exact e (by rw [ey, hx y ey])
        | cons b l =>
          obtain ⟨c, z, hc, hz, hp, hd⟩ := ih xs (by simp) h.2
          obtain ⟨d, e1, e2, e3⟩ := highest2_sum P a c x z h.1 hp
          have hh : highestRanked P (a :: b :: l) = some d := by
            cases l with
            | nil =>
              have : c = b := by
                have : some b = some c := hc
                injection this with this
                exact this.symm
              subst this
              exact e1
            | cons b' l =>
              show (do highest2 P a (← highestRanked P (b :: b' :: l))) = _
              rw [hc]
              exact e1
          refine ⟨d, join x z, hh, ⟨?_, ?_⟩, e2, ?_⟩
          · have jj := (join_least x z (join x z)).1 (below_refl _)
            intro w hw
            rcases List.mem_cons.1 hw with rfl | hw
            · exact jj.1
            · exact below_trans _ _ _ (hz.1 w hw) jj.2
          · intro w hw
            exact (join_least x z w).2 ⟨hw x (by simp), hz.2 w fun y hy => hw y (by simp [hy])⟩
          · rcases e3 with e3 | ⟨ea, ec⟩
            · exact .inl e3
            · right
              intro b' hb' y ey
              rcases List.mem_cons.1 hb' with rfl | hb'
              · exact ea (by rw [ey, hx y ey])
              · exact (hd.resolve_left ec) b' hb' y ey
  obtain ⟨c, z, h1, h2, h3, h4⟩ := main l xs hl h
  refine ⟨c, z, h1, h2, h3, ?_⟩
  rintro ⟨x, hx⟩
  exact h4.resolve_right fun h => h _ hx x rfl

/-- `char`, `unsigned` and `long` give `long`; `unsigned long` and `long long` give `unsigned long long`. -/
example (P : Platform) : highestRanked P [.char, .uint, .long] = some .long ∧ highestRanked P [.ulong, .int, .llong] = some .ullong := ⟨rfl, rfl⟩

/-- C171: the highest-ranked of standard integral types is one, and none of the types is larger. -/
theorem C171_size (P : Platform) (l : List Base) (hl : l ≠ []) (h : ∀ b ∈ l, b.Whole) :
    ∃ c, highestRanked P l = some c ∧ c.Whole ∧ ∀ b ∈ l, b.bits P ≤ c.bits P := by
  have two : ∀ a b : Base, a.Whole → b.Whole → ∃ c, highest2 P a b = some c ∧ c.Whole ∧ a.bits P ≤ c.bits P ∧ b.bits P ≤ c.bits P :=
    fun a b ha hb => highest2_size P a b ((whole_iff a).1 ha) ((whole_iff b).1 hb)
  induction l with
  | nil => exact absurd rfl hl
  | cons a l ih =>
    cases l with
    | nil => exact ⟨a, rfl, h a (by simp), by simp⟩
    | cons b l =>
      obtain ⟨c, e, hc, hm⟩ := ih (by simp) fun x hx => h x (by simp [List.mem_cons.1 hx])
      obtain ⟨d, e', hd, l1, l2⟩ := two a c (h a (by simp)) hc
      refine ⟨d, ?_, hd, ?_⟩
      · cases l with
        | nil =>
          have : c = b := by
            have : some b = some c := e
            injection this with this
            exact this.symm
          subst this
          exact e'
        | cons b' l =>
          show (do highest2 P a (← highestRanked P (b :: b' :: l))) = _
          rw [e]
          exact e'
      · intro x hx
        rcases List.mem_cons.1 hx with rfl | hx
        · exact l1
        · exact Nat.le_trans (hm x hx) l2

example (P : Platform) : highestRanked P [.uchar, .ushort, .uchar] = some .ushort := rfl

/-- C171, what is true of the order of the types: it does not matter for two types, or if one of the types is not smaller than `int`. Missing: three or
more types that are all smaller than `int`, for which see `C171_violated`. -/
theorem C171_order_partial (P : Platform) :
    (∀ a b : Base, highest2 P a b = highest2 P b a ∨ promotion P a = none ∨ promotion P b = none) ∧
    ∀ (l l' : List Base), l.Perm l' → (∀ b ∈ l, ∃ x, promotion P b = some x) → (∃ x : Arith, x.type ∈ l) →
      ∃ h, highestRanked P l = some h ∧ highestRanked P l' = some h := by
  refine ⟨?_, ?_⟩
  · intro a b
    rcases ha : promotion P a with _ | x
    · exact .inr (.inl rfl)
    rcases hb : promotion P b with _ | y
    · exact .inr (.inr rfl)
    left
    have pa := promote_type P a x ha
    have pb := promote_type P b y hb
    have va : a ≠ .void := by rintro rfl; simp [promotion] at ha
    have vb : b ≠ .void := by rintro rfl; simp [promotion] at hb
    by_cases e : a = b
    · rw [e]
    · have c : common (promote P a) (promote P b) = common (promote P b) (promote P a) := by
        rw [pa, pb, join_type, join_type]
        cases x <;> cases y <;> rfl
      cases a <;> cases b <;> first | exact (va rfl).elim | exact (vb rfl).elim | (exact congrArg some c) | rfl | (simp [promotion] at ha; done) | (simp [promotion] at hb; done)
  · intro l l' hp hs hx
    have ex : ∀ l : List Base, (∀ b ∈ l, ∃ x, promotion P b = some x) → ∃ xs : List Arith, l.map (promotion P) = xs.map some := by
      intro l
      induction l with
      | nil => exact fun _ => ⟨[], rfl⟩
      | cons a l ih =>
        intro h
        obtain ⟨x, hx⟩ := h a (by simp)
        obtain ⟨xs, hxs⟩ := ih fun b hb => h b (by simp [hb])
        exact ⟨x :: xs, by simp [hx, hxs]⟩
    obtain ⟨xs, e⟩ := ex l hs
    obtain ⟨xs', e'⟩ := ex l' fun b hb => hs b (hp.mem_iff.2 hb)
    have ne : l ≠ [] := by
      rintro rfl
      simp at hx
    have ne' : l' ≠ [] := by
      rintro rfl
      exact ne (List.perm_nil.1 hp)
    obtain ⟨h, z, a1, a2, a3, a4⟩ := C171_sum P l xs ne e
    obtain ⟨h', z', b1, b2, b3, b4⟩ := C171_sum P l' xs' ne' e'
    have mem : ∀ x, x ∈ xs ↔ x ∈ xs' := by
      intro x
      have m1 : some x ∈ l.map (promotion P) ↔ x ∈ xs := by rw [e]; simp
      have m2 : some x ∈ l'.map (promotion P) ↔ x ∈ xs' := by rw [e']; simp
      rw [← m1, ← m2]
      exact (hp.map _).mem_iff
    have hz : z = z' := by
      refine sum_unique z z' xs a2 ⟨fun x hx => b2.1 x ((mem x).1 hx), fun w hw => b2.2 w fun x hx => hw x ((mem x).2 hx)⟩
    refine ⟨h, a1, ?_⟩
    rw [b1, a4 hx, b4 (by obtain ⟨x, hx⟩ := hx; exact ⟨x, hp.mem_iff.1 hx⟩), hz]

example (P : Platform) : highestRanked P [.short, .float, .long] = highestRanked P [.long, .short, .float] := rfl

/-- C171 is violated: for types that are all smaller than `int` the order matters. A matrix made from elements of the types `signed char`,
`unsigned char` and `short` has elements of type `int` if the `short` comes first, and of type `short` if the `signed char` does. -/
theorem C171_violated :
    ¬ ∀ (P : Platform) (l l' : List Base), l.Perm l' → (∀ b ∈ l, ∃ x, promotion P b = some x) → highestRanked P l = highestRanked P l' := by
  intro h
  have := h ⟨true, true, true⟩ [.short, .schar, .uchar] [.schar, .short, .uchar] (List.Perm.swap _ _ _) (by simp [promotion])
  revert this
  decide

/-- C171: of floating-point types, `half` among them, the highest-ranked is the largest. -/
theorem C171_floats (P : Platform) (l : List Base) (hl : l ≠ []) (h : ∀ b ∈ l, b ∈ [Base.half, .float, .double, .ldouble]) :
    ∃ c ∈ l, highestRanked P l = some c ∧ ∀ b ∈ l, b.bits P ≤ c.bits P := by
  have two : ∀ a ∈ [Base.half, .float, .double, .ldouble], ∀ b ∈ [Base.half, .float, .double, .ldouble],
      ∃ c, highest2 P a b = some c ∧ (c = a ∨ c = b) ∧ a.bits P ≤ c.bits P ∧ b.bits P ≤ c.bits P := by
    intro a ha b hb
    simp only [List.mem_cons, List.not_mem_nil, or_false] at ha hb
    rcases ha with rfl | rfl | rfl | rfl <;> rcases hb with rfl | rfl | rfl | rfl <;>
      simp [highest2, common, promote, rank, Base.bits]
  induction l with
  | nil => exact absurd rfl hl
  | cons a l ih =>
    cases l with
    | nil => exact ⟨a, by simp, rfl, by simp⟩
    | cons b l =>
      obtain ⟨c, hc, e, hm⟩ := ih (by simp) fun x hx => h x (by simp [List.mem_cons.1 hx])
      obtain ⟨d, e', hd, l1, l2⟩ := two a (h a (by simp)) c (h c (List.mem_cons_of_mem _ hc))
      refine ⟨d, ?_, ?_, ?_⟩
      · rcases hd with rfl | rfl
        · simp
        · exact List.mem_cons_of_mem _ hc
      · cases l with
        | nil =>
          have : c = b := by simpa using hc
          subst this
          exact e'
        | cons b' l =>
          show (do highest2 P a (← highestRanked P (b :: b' :: l))) = _
          rw [e]
          exact e'
      · intro x hx
        rcases List.mem_cons.1 hx with rfl | hx
        · exact l1
        · exact Nat.le_trans (hm x hx) l2

example (P : Platform) : highestRanked P [.half, .float, .half] = some .float := rfl

end Verif.Props.MetaNumbers
