import Verif.Proofs.Meta
/-! # Metafunctions on types -/
namespace Verif.Props.Meta
open Verif.Spec.CppTypes Verif.Model.Meta Verif.Proofs.Meta

/-- C167: every type that exists is a type without qualifiers, or that with qualifiers, or a reference to one of these, and it is so in one way only;
if it is not a function, its qualifiers are determined too. -/
theorem C167_types (t : Ty) (h : Formed t) :
    (∃ k q p, Plain p ∧ Refers k p ∧ t = make k q p ∧ (Qualifiable p ∨ ∃ i e n, p = .fn i e n)) ∧
      ∀ k q p k' q' p', Plain p → Refers k p → t = make k q p → Plain p' → Refers k' p' → t = make k' q' p' →
        k = k' ∧ p = p' ∧ (Qualifiable p → q = q') := by
  have object : ∀ t, Formed t → (∀ u, t ≠ .lref u ∧ t ≠ .rref u) →
      ∃ q p, Plain p ∧ t = qualify q p ∧ (Qualifiable p ∨ ∃ i e n, p = .fn i e n) := by
    intro t
    induction t with
    | base q b => exact fun _ _ => ⟨q, .base {} b, rfl, rfl, .inl trivial⟩
    | ptr q t _ => exact fun _ _ => ⟨q, .ptr {} t, rfl, rfl, .inl trivial⟩
    | memfn q i e n => exact fun _ _ => ⟨q, .memfn {} i e n, rfl, rfl, .inl trivial⟩
    | fn i e n => exact fun _ _ => ⟨{}, .fn i e n, trivial, rfl, .inr ⟨i, e, n, rfl⟩⟩
    | lref u _ => exact fun _ h => absurd rfl (h u).1
    | rref u _ => exact fun _ h => absurd rfl (h u).2
    | arr t n ih =>
      intro h _
      obtain ⟨q, p, hp, e, hq⟩ := ih h.1 (by
        intro u
        refine ⟨?_, ?_⟩ <;> rintro rfl <;> exact h.2)
      have hqp : Qualifiable p := by
        rcases hq with hq | ⟨i, e', n', rfl⟩
        · exact hq
        · have := h.2
          rw [e] at this
          exact this
      exact ⟨q, .arr p n, hp, by rw [e]; rfl, .inl hqp⟩
  refine ⟨?_, ?_⟩
  · cases t with
    | lref u =>
      obtain ⟨q, p, hp, e, hq⟩ := object u h.1 h.2.1
      have hv : ∀ q, p ≠ .base q .void := by
        rintro q' rfl
        exact h.2.2 q e
      exact ⟨.l, q, p, hp, .inr hv, by rw [e, make_l q p hv], hq⟩
    | rref u =>
      obtain ⟨q, p, hp, e, hq⟩ := object u h.1 h.2.1
      have hv : ∀ q, p ≠ .base q .void := by
        rintro q' rfl
        exact h.2.2 q e
      exact ⟨.r, q, p, hp, .inr hv, by rw [e, make_r q p hv], hq⟩
    | _ =>
      obtain ⟨q, p, hp, e, hq⟩ := object _ h (fun u => ⟨Ty.noConfusion, Ty.noConfusion⟩)
      exact ⟨.none, q, p, hp, .inl rfl, by rw [make_none]; exact e, hq⟩
  · intro k q p k' q' p' hp hr e hp' hr' e'
    have h1 := congrArg removeCvref (e.symm.trans e')
    rw [removeCvref_make _ _ _ hp, removeCvref_make _ _ _ hp'] at h1
    subst h1
    have hk : k = k' := by
      have hl := congrArg isReference (e.symm.trans e')
      rw [isReference_make _ _ _ hp hr, isReference_make _ _ _ hp hr'] at hl
      by_cases h0 : k = .none
      · have : k' = .none := by simpa [h0] using hl
        rw [h0, this]
      · have hv := hr.resolve_left h0
        have e2 := e.symm.trans e'
        cases k <;> cases k' <;> first | rfl | exact (h0 rfl).elim | (simp at hl; done) |
          (rw [make_l _ _ hv, make_r _ _ hv] at e2; cases e2; done) | (rw [make_r _ _ hv, make_l _ _ hv] at e2; cases e2; done)
    refine ⟨hk, rfl, fun hq => ?_⟩
    have h2 := congrArg (fun t => cvOf (removeReference t)) (e.symm.trans e')
    simpa only [remove_make _ _ _ hp, cvOf_qualify _ _ hq] using h2

/-- `const int (&)[3]` is a reference to an array with `const`. -/
example : Formed (.lref (.arr (.base ⟨true, false⟩ .int) (some 3))) ∧
    Ty.lref (.arr (.base ⟨true, false⟩ .int) (some 3)) = make .l ⟨true, false⟩ (.arr (.base {} .int) (some 3)) := by
  simp [Formed, Qualifiable, make, refer, qualify]

/-- C167: adding, removing and setting `const`, `volatile` or both changes the qualifiers that it names of a type, or of the type that a reference refers
to, and nothing else. -/
theorem C167_qualifiers (k : Ref) (q : CV) (p : Ty) (h : Plain p) (b : Bool) :
    addConst (make k q p) = make k ⟨true, q.v⟩ p ∧
    removeConst (make k q p) = make k ⟨false, q.v⟩ p ∧
    setConst (make k q p) b = make k ⟨b, q.v⟩ p ∧
    conditionallyAddConst (make k q p) b = make k ⟨q.c || b, q.v⟩ p ∧
    addVolatile (make k q p) = make k ⟨q.c, true⟩ p ∧
    removeVolatile (make k q p) = make k ⟨q.c, false⟩ p ∧
    setVolatile (make k q p) b = make k ⟨q.c, b⟩ p ∧
    conditionallyAddVolatile (make k q p) b = make k ⟨q.c, q.v || b⟩ p ∧
    addCv (make k q p) = make k ⟨true, true⟩ p ∧
    removeCv (make k q p) = make k ⟨false, false⟩ p ∧
    setCv (make k q p) b = make k ⟨b, b⟩ p ∧
    conditionallyAddCv (make k q p) b = make k ⟨q.c || b, q.v || b⟩ p := by
  cases b <;>
  simp [addConst, removeConst, setConst, conditionallyAddConst, addVolatile, removeVolatile, setVolatile, conditionallyAddVolatile, addCv, removeCv,
    setCv, conditionallyAddCv, stdAddConst, stdRemoveConst, stdAddVolatile, stdRemoveVolatile, remove_make _ _ _ h, mapCV_qualify, rebase_make _ _ _ _ h]

/-- `add_const<int* &>` is `int* const&`. -/
example : addConst (.lref (.ptr {} (.base {} .int))) = .lref (.ptr ⟨true, false⟩ (.base {} .int)) := by decide

/-- C167: copying `const`, `volatile`, both, the reference or all of them from another type replaces those of the first type by those of the second; the
type with neither is found, and so is the type of a reference to `const`. -/
theorem C167_copy (k k' : Ref) (q q' : CV) (p p' : Ty) (h : Plain p) (h' : Plain p') (hq : Qualifiable p') (hr : Refers k' p') :
    copyConst (make k q p) (make k' q' p') = make k ⟨q'.c, q.v⟩ p ∧
    copyVolatile (make k q p) (make k' q' p') = make k ⟨q.c, q'.v⟩ p ∧
    copyCv (make k q p) (make k' q' p') = make k q' p ∧
    copyRef (make k q p) (make k' q' p') = make k' q p ∧
    copyCvref (make k q p) (make k' q' p') = make k' q' p ∧
    removeCvref (make k q p) = p ∧
    makeCref (make k q p) = make .l ⟨true, false⟩ p ∧
    removeLvalueReference (make k q p) = (if k = .l then make .none q p else make k q p) ∧
    removeRvalueReference (make k q p) = (if k = .r then make .none q p else make k q p) := by
  have hc : ∀ k q b, setConst (make k q p) b = make k ⟨b, q.v⟩ p := fun k q b => (C167_qualifiers k q p h b).2.2.1
  have hv : ∀ k q b, setVolatile (make k q p) b = make k ⟨q.c, b⟩ p := fun k q b => (C167_qualifiers k q p h b).2.2.2.2.2.2.1
  have c1 : ∀ k'', isConst (make k'' q' p') = q'.c := by
    intro k''
    unfold isConst stdIsConst
    rw [remove_make _ _ _ h', cvOf_qualify _ _ hq]
  have v1 : ∀ k'', isVolatile (make k'' q' p') = q'.v := by
    intro k''
    unfold isVolatile stdIsVolatile
    rw [remove_make _ _ _ h', cvOf_qualify _ _ hq]
  have cv : ∀ k k'', copyCv (make k q p) (make k'' q' p') = make k q' p := by
    intro k k''
    unfold copyCv copyConst copyVolatile
    rw [c1, v1, hv, hc]
  refine ⟨by unfold copyConst; rw [c1, hc], by unfold copyVolatile; rw [v1, hv], cv k k', refers_copy k k' q q' p p' h h' hr, ?_,
    removeCvref_make k q p h, ?_, ?_, ?_⟩
  · unfold copyCvref
    rw [remove_make _ _ _ h, remove_make _ _ _ h', ← make_none q p, ← make_none q' p', cv]
    exact refers_copy .none k' q' q' p p' h h' hr
  · unfold makeCref
    rw [removeCvref_make k q p h, stdAddConst, ← qualify_plain p h, mapCV_qualify]
    rw [qualify_plain p h]
    exact addL_qualify _ p h
  · cases p with
    | base q0 b => cases k <;> cases b <;> rfl
    | lref u => exact h.elim
    | rref u => exact h.elim
    | _ => cases k <;> rfl
  · cases p with
    | base q0 b => cases k <;> cases b <;> rfl
    | lref u => exact h.elim
    | rref u => exact h.elim
    | _ => cases k <;> rfl

/-- `copy_cvref<int&&, const float&>` is `const int&`. -/
example : copyCvref (.rref (.base {} .int)) (.lref (.base ⟨true, false⟩ .float)) = .lref (.base ⟨true, false⟩ .int) := by decide

/-- C167: whether a type or the type that a reference refers to is `const` or `volatile`, and whether a type has qualifiers or is a reference, is told. -/
theorem C167_traits (k : Ref) (q : CV) (p : Ty) (h : Plain p) (hq : Qualifiable p) (hr : Refers k p) :
    isConst (make k q p) = q.c ∧ isVolatile (make k q p) = q.v ∧ (isCvref (make k q p) = true ↔ q.c = true ∨ q.v = true ∨ k ≠ .none) ∧
      (isCv (make .none q p) = true ↔ q.c = true ∨ q.v = true) := by
  refine ⟨?_, ?_, ?_, ?_⟩
  · unfold isConst stdIsConst
    rw [remove_make _ _ _ h, cvOf_qualify _ _ hq]
  · unfold isVolatile stdIsVolatile
    rw [remove_make _ _ _ h, cvOf_qualify _ _ hq]
  · unfold isCvref stdIsConst stdIsVolatile
    rw [isReference_make _ _ _ h hr]
    by_cases hk : k = .none
    · subst hk
      rw [make_none, cvOf_qualify _ _ hq]
      simp
    · simp [hk]
  · unfold isCv stdIsConst stdIsVolatile
    rw [make_none, cvOf_qualify _ _ hq]
    simp

/-- `const int&` -/
example : isConst (make .l ⟨true, false⟩ (.base {} .int)) = true ∧ isCvref (make .l {} (.base {} .int)) = true := by decide

/-- C167, what is true of `any_cv`: among types that are not references it finds the qualified ones. Missing: references, for which see `C167_violated`. -/
theorem C167_any_partial (ts : List (CV × Ty)) (h : ∀ x ∈ ts, Plain x.2 ∧ Qualifiable x.2) :
    anyCv (ts.map fun x => make .none x.1 x.2) = true ↔ ∃ x ∈ ts, x.1.c = true ∨ x.1.v = true := by
  unfold anyCv
  rw [List.any_map, List.any_eq_true]
  refine ⟨fun ⟨x, hx, e⟩ => ⟨x, hx, ?_⟩, fun ⟨x, hx, e⟩ => ⟨x, hx, ?_⟩⟩
  · exact (C167_traits .none x.1 x.2 (h x hx).1 (h x hx).2 (.inl rfl)).2.2.2.1 e
  · exact (C167_traits .none x.1 x.2 (h x hx).1 (h x hx).2 (.inl rfl)).2.2.2.2 e

example : anyCv [.base {} .int, .base ⟨false, true⟩ .int] = true := by decide

/-- C167 is violated: `any_cv` does not count references to qualified types, as its documentation says it does. -/
theorem C167_violated :
    ¬ ∀ ts : List (Ref × CV × Ty), (∀ x ∈ ts, Plain x.2.2 ∧ Qualifiable x.2.2 ∧ Refers x.1 x.2.2) →
      (anyCv (ts.map fun x => make x.1 x.2.1 x.2.2) = true ↔ ∃ x ∈ ts, x.2.1.c = true ∨ x.2.1.v = true) := by
  intro h
  have := h [(.l, ⟨true, false⟩, .base {} .int)] (by simp [Plain, Qualifiable, Refers])
  simp [anyCv, make, refer, qualify, isCv, stdIsConst, stdIsVolatile, cvOf] at this

/-- C168: the traits of numbers say what they are named for. They hold for a type and for references to it, whatever the qualifiers; signedness and
being integral are asked of the underlying type of an enumeration, the other traits are not. -/
theorem C168_numbers (P : Platform) (k : Ref) (q : CV) (b : Base) (hb : b.Valid) (hr : Refers k (.base {} b)) :
    let t := make k q (.base {} b)
    (isIntegral t = true ↔ b.stored = .bool ∨ b.stored.Character ∨ b.stored.Integer) ∧
    (isSigned P t = true ↔ b.stored.Negative P) ∧
    (isUnsigned P t = true ↔ (b.stored = .bool ∨ b.stored.Character ∨ b.stored.Integer) ∧ ¬ b.stored.Negative P) ∧
    (isInteger t = true ↔ b.Integer) ∧
    (isFloatingPoint t = true ↔ b.Floating) ∧
    (isArithmetic t = true ↔ b = .bool ∨ b.Character ∨ b.Integer ∨ b.Floating) ∧
    (isStandardArithmetic t = true ↔ b.Whole ∨ b ∈ [Base.float, .double, .ldouble]) ∧
    (isExtendedArithmetic t = true ↔ (b.Integer ∨ b.Floating) ∧ ¬ (b.Whole ∨ b ∈ [Base.float, .double, .ldouble])) ∧
    (isCodeUnit t = true ↔ b.Character) ∧
    (isEnum t = true ↔ ∃ i s u, b = .enum i s u) ∧
    (isScopedEnum t = true ↔ ∃ i u, b = .enum i true u) ∧
    (isLegacyEnum t = true ↔ ∃ i u, b = .enum i false u) ∧
    removeEnum t = make k q (.base {} b.stored) := by
  have e1 : removeCvref (make k q (.base {} b)) = .base {} b := removeCvref_make k q _ rfl
  have e2 : removeReference (make k q (.base {} b)) = .base q b := remove_make k q _ rfl
  have e3 : removeEnum (.base {} b) = .base {} b.stored := by cases b <;> rfl
  have e4 : removeEnum (make k q (.base {} b)) = make k q (.base {} b.stored) := by
    cases b with
    | enum i s u =>
      have hu : ∀ q, Ty.base {} u ≠ .base q .void := by
        rintro q' h
        cases h
        simp [Base.Valid, Base.Whole, Base.Character, Base.Integer] at hb
      obtain ⟨c, v⟩ := q
      cases k
      · rw [make_none, make_none]
        cases c <;> cases v <;> rfl
      · rw [make_l _ _ (by simp), show (Base.enum i s u).stored = u from rfl, make_l _ _ hu]
        cases c <;> cases v <;> cases u <;> first | rfl | exact (hu _ rfl).elim
      · rw [make_r _ _ (by simp), show (Base.enum i s u).stored = u from rfl, make_r _ _ hu]
        cases c <;> cases v <;> cases u <;> first | rfl | exact (hu _ rfl).elim
    | _ => cases k <;> rfl
  intro t
  simp only [isIntegral, isSigned, isUnsigned, isInteger, isFloatingPoint, isArithmetic, isStandardArithmetic, isExtendedArithmetic, isCodeUnit, isEnum,
    isScopedEnum, isLegacyEnum, t, e1, e2, e3, e4]
  refine ⟨?_, ?_, ?_, ?_, ?_, ?_, ?_, ?_, ?_, ?_, ?_, ?_, trivial⟩
  · generalize b.stored = c
    cases c <;> simp [named, stdIntegral, Base.Character, Base.Integer]
  · generalize b.stored = c
    cases c <;> simp [named, stdSigned, Base.Negative, Base.Floating]
  · generalize b.stored = c
    cases c <;> simp [named, stdUnsigned, stdIntegral, stdSigned, Base.Negative, Base.Floating, Base.Character, Base.Integer]
  · cases b <;> simp [Base.Integer]
  · cases b <;> simp [named, stdFloating, Base.Floating]
  · cases b <;> simp [named, stdFloating, stdIntegral, Base.Floating, Base.Integer, Base.Character]
  · cases b <;> simp [named, stdFloating, stdIntegral, Base.Whole, Base.Integer, Base.Character]
  · cases b <;> simp [Base.Floating, Base.Whole, Base.Integer, Base.Character]
  · cases b <;> simp [Base.Character]
  · cases b <;> simp [stdIsEnum]
  · cases b <;> simp [stdIsEnum]
  · cases b <;> simp [stdIsEnum]

/-- A reference to a `const` enumeration of `unsigned`. -/
example (P : Platform) :
    isUnsigned P (.lref (.base ⟨true, false⟩ (.enum 0 true .uint))) = true ∧
      isInteger (.lref (.base ⟨true, false⟩ (.enum 0 true .uint))) = false ∧
      removeEnum (.lref (.base ⟨true, false⟩ (.enum 0 true .uint))) = .lref (.base ⟨true, false⟩ .uint) :=
  ⟨rfl, rfl, rfl⟩

/-- C168: pointers, arrays, functions and references to these are not numbers or enumerations. -/
theorem C168_others (P : Platform) (k : Ref) (q : CV) (p : Ty) (hp : Plain p) (hb : ∀ q b, p ≠ .base q b) :
    let t := make k q p
    isIntegral t = false ∧ isSigned P t = false ∧ isUnsigned P t = false ∧ isInteger t = false ∧ isFloatingPoint t = false ∧ isArithmetic t = false ∧
      isCodeUnit t = false ∧ isEnum t = false ∧ isScopedEnum t = false ∧ isLegacyEnum t = false ∧ removeEnum t = t := by
  have e1 : removeCvref (make k q p) = p := removeCvref_make k q p hp
  have e2 : removeReference (make k q p) = qualify q p := remove_make k q p hp
  have e3 : removeEnum p = p := by
    cases p with
    | base q b => exact (hb q b rfl).elim
    | lref u => exact hp.elim
    | rref u => exact hp.elim
    | _ => rfl
  have e4 : isEnum (make k q p) = false := by
    unfold isEnum
    rw [e2]
    cases p with
    | base q b => exact (hb q b rfl).elim
    | lref u => exact hp.elim
    | rref u => exact hp.elim
    | _ => rfl
  intro t
  refine ⟨?_, ?_, ?_, ?_, ?_, ?_, ?_, e4, ?_, ?_, by simp only [removeEnum, t, e4, Bool.false_eq_true, if_false]⟩
  all_goals
    simp only [isIntegral, isSigned, isUnsigned, isInteger, isFloatingPoint, isArithmetic, isStandardArithmetic, isExtendedArithmetic, isCodeUnit,
      isScopedEnum, isLegacyEnum, t, e1, e2, e3, e4, Bool.false_and]
  all_goals
    cases p with
    | base q b => exact (hb q b rfl).elim
    | lref u => exact hp.elim
    | rref u => exact hp.elim
    | _ => simp [named, qualify]

/-- `int*&` -/
example : isInteger (make .l {} (.ptr {} (.base {} .int))) = false := by decide

/-- C168: every integral type is signed or unsigned, no type is both, and every floating-point type is signed and not integral. -/
theorem C168_exclusive (P : Platform) (t : Ty) (h : Formed t) (hv : ∀ k q b, t = make k q (.base {} b) → b.Valid) :
    ¬ (isSigned P t = true ∧ isUnsigned P t = true) ∧ (isIntegral t = true → isSigned P t = true ∨ isUnsigned P t = true) ∧
      (isFloatingPoint t = true → isSigned P t = true ∧ isIntegral t = false) ∧
      (isUnsigned P t = true → isIntegral t = true) ∧ (isInteger t = true → isIntegral t = true) := by
  obtain ⟨⟨k, q, p, hp, hr, e, -⟩, -⟩ := C167_types t h
  by_cases hb : ∃ b, p = .base {} b
  · obtain ⟨b, rfl⟩ := hb
    obtain ⟨i1, i2, i3, i4, i5, -⟩ := C168_numbers P k q b (hv k q b e) hr
    subst e
    refine ⟨?_, ?_, ?_, ?_, ?_⟩
    · rw [i2, i3]
      exact fun ⟨a, b⟩ => b.2 a
    · rw [i1, i2, i3]
      intro h
      by_cases hn : b.stored.Negative P
      · exact .inl hn
      · exact .inr ⟨h, hn⟩
    · rw [i5, ← Bool.not_eq_true, i1, i2]
      intro h
      simp only [Base.Floating, List.mem_cons, List.not_mem_nil, or_false] at h
      rcases h with rfl | rfl | rfl | rfl | rfl | rfl | rfl <;> simp [Base.stored, Base.Negative, Base.Floating, Base.Character, Base.Integer]
    · rw [i1, i3]
      exact fun h => h.1
    · rw [i1, i4]
      intro h
      have : b.stored = b := by
        simp only [Base.Integer, List.mem_cons, List.not_mem_nil, or_false] at h
        rcases h with rfl | rfl | rfl | rfl | rfl | rfl | rfl | rfl | rfl | rfl | rfl | rfl <;> rfl
      rw [this]
      exact .inr (.inr h)
  · obtain ⟨i1, i2, i3, i4, i5, -⟩ := C168_others P k q p hp (by
      rintro q b rfl
      exact hb ⟨b, by rw [show q = {} from hp]⟩)
    subst e
    rw [i1, i2, i3, i4, i5]
    simp

example (P : Platform) : isSigned P (.rref (.base {} .half)) = true ∧ isIntegral (.rref (.base {} .half)) = false := by
  refine ⟨rfl, rfl⟩

end Verif.Props.Meta
