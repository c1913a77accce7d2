import Verif.Props.Meta
/-! # Pointers, arrays and functions -/
namespace Verif.Props.MetaPointers
open Verif.Spec.CppTypes Verif.Model.Meta Verif.Proofs.Meta

/-- C170: the number of stars of a type is counted, whatever the qualifiers between them, and removing all pointers removes exactly these stars. -/
theorem C170_rank (qs : List CV) (t : Ty) (h : isPointer t = false) :
    pointerRank (qs.foldr Ty.ptr t) = qs.length ∧ removeAllPointers (qs.foldr Ty.ptr t) = t := by
  induction qs with
  | nil => cases t <;> first | exact ⟨rfl, rfl⟩ | cases h
  | cons q qs ih =>
    refine ⟨?_, ih.2⟩
    show 1 + pointerRank (qs.foldr Ty.ptr t) = qs.length + 1
    rw [ih.1]
    exact Nat.add_comm 1 _

/-- Every type is some number of stars on a type that is not a pointer. -/
theorem C170_stars (t : Ty) : ∃ qs u, isPointer u = false ∧ t = List.foldr Ty.ptr u qs := by
  induction t with
  | ptr q t ih =>
    obtain ⟨qs, u, h, e⟩ := ih
    exact ⟨q :: qs, u, h, by rw [e]; rfl⟩
  | _ => exact ⟨[], _, rfl, rfl⟩

/-- `const int* const*` -/
example : pointerRank (.ptr {} (.ptr ⟨true, false⟩ (.base ⟨true, false⟩ .int))) = 2 ∧
    removeAllPointers (.ptr {} (.ptr ⟨true, false⟩ (.base ⟨true, false⟩ .int))) = .base ⟨true, false⟩ .int := by decide

/-- C170, what is true of rebasing a pointer: a pointer without qualifiers of its own, or a reference to one, becomes one to the new type, with the
qualifiers of the type it pointed to added to those of the new one; a type that is not a pointer is rejected. Missing: pointers with qualifiers of their
own, for which see `C170_violated`. -/
theorem C170_rebase_partial (k : Ref) (q q' : CV) (x y : Ty) (hx : Qualifiable x) (hy : Plain y) :
    rebasePointer (make k {} (.ptr {} (qualify q x))) (qualify q' y) = some (make k {} (.ptr {} (qualify ⟨q.c || q'.c, q.v || q'.v⟩ y))) ∧
      ∀ p, Plain p → isPointer p = false → rebasePointer (make k q p) y = none := by
  refine ⟨?_, ?_⟩
  · have e : rebasePointerObject (.ptr {} (qualify q x)) (qualify q' y) = some (.ptr {} (qualify ⟨q.c || q'.c, q.v || q'.v⟩ y)) := by
      obtain ⟨c, v⟩ := q
      obtain ⟨c', v'⟩ := q'
      have r : ∀ q, removeReference (qualify q y) = qualify q y := by
        intro q
        cases y <;> first | rfl | exact hy.elim
      simp only [rebasePointerObject, stdIsConst, stdIsVolatile, cvOf_qualify _ _ hx, addPointer, stdAddConst, stdAddVolatile, mapCV_qualify, r]
      cases c <;> cases v <;> cases c' <;> cases v' <;> rfl
    cases k with
    | none => exact e
    | l =>
      show (rebasePointerObject (.ptr {} (qualify q x)) (qualify q' y)).map addLvalueReference = _
      rw [e]
      rfl
    | r =>
      show (rebasePointerObject (.ptr {} (qualify q x)) (qualify q' y)).map addRvalueReference = _
      rw [e]
      rfl
  · intro p hp h
    cases p with
    | base q0 b => cases k <;> cases b <;> rfl
    | ptr q0 u => cases h
    | lref u => exact hp.elim
    | rref u => exact hp.elim
    | _ => cases k <;> rfl

/-- `rebase_pointer<const int*&, float>` is `const float*&`. -/
example : rebasePointer (.lref (.ptr {} (.base ⟨true, false⟩ .int))) (.base {} .float) = some (.lref (.ptr {} (.base ⟨true, false⟩ .float))) := by decide

/-- C170 is violated: rebasing a pointer with qualifiers of its own loses the qualifiers of the type it points to. From `const int* const`, a pointer
through which nothing can be changed, it makes `float*`. -/
theorem C170_violated :
    (¬ ∀ (k : Ref) (own q : CV) (x y : Ty), Qualifiable x → Plain y →
      ∃ k' own', rebasePointer (make k own (.ptr {} (qualify q x))) y = some (make k' own' (.ptr {} (qualify q y)))) ∧
    rebasePointer (.ptr ⟨true, false⟩ (.base ⟨true, false⟩ .int)) (.base {} .float) = some (.ptr {} (.base {} .float)) := by
  refine ⟨fun h => ?_, by decide⟩
  obtain ⟨k', own', e⟩ := h .none ⟨true, false⟩ ⟨true, false⟩ (.base {} .int) (.base {} .float) trivial rfl
  have e' : Ty.ptr {} (.base {} .float) = make k' own' (.ptr {} (.base ⟨true, false⟩ .float)) := by
    have : some (Ty.ptr {} (.base {} .float)) = some (make k' own' (.ptr {} (.base ⟨true, false⟩ .float))) := e
    injection this
  revert e'
  cases k' <;> simp [make, refer, qualify]

/-- C170: arrays with and without a length, functions and pointers to functions are told apart, whatever the qualifiers, and by reference too. -/
theorem C170_traits (k : Ref) (q : CV) (p : Ty) (hp : Plain p) :
    (isBoundedArray (make k q p) = true ↔ ∃ t n, p = .arr t (some n)) ∧
    (isUnboundedArray (make k q p) = true ↔ ∃ t, p = .arr t none) ∧
    (isArray (make k q p) = true ↔ ∃ t n, p = .arr t n) ∧
    (isFunction (make k q p) = true ↔ ∃ i e n, p = .fn i e n) ∧
    ((∀ u q, p = .ptr q u → ∀ w, u ≠ .lref w ∧ u ≠ .rref w) →
      (isFunctionPointer (make k q p) = true ↔ ∃ i e n, p = .ptr {} (.fn i e n))) := by
  have e1 := removeCvref_make k q p hp
  have e2 := remove_make k q p hp
  simp only [isArray, isBoundedArray, isUnboundedArray, isFunction, isFunctionPointer, e1, e2]
  cases p with
  | base q0 b => simp [qualify, stdIsFunction, isPointer]
  | lref u => exact hp.elim
  | rref u => exact hp.elim
  | memfn q0 i e n => simp [qualify, stdIsFunction, isPointer]
  | fn i e n => simp [qualify, stdIsFunction, isPointer]
  | arr t n => cases n <;> simp [qualify, stdIsFunction, isPointer]
  | ptr q0 u =>
    obtain rfl : q0 = {} := hp
    refine ⟨by simp [qualify], by simp [qualify], by simp [qualify], by simp [stdIsFunction], fun h => ?_⟩
    have h := h u {} rfl
    cases u with
    | lref w => exact absurd rfl (h w).1
    | rref w => exact absurd rfl (h w).2
    | _ => simp [qualify, isPointer, removePointer, removeCvref, removeReference, stdIsFunction, stdRemoveConst, stdRemoveVolatile, mapCV]

example : isFunctionPointer (make .l ⟨true, false⟩ (.ptr {} (.fn 0 false true))) = true ∧ isArray (make .r {} (.arr (.base {} .int) none)) = true := by decide

/-- Functions, pointers to functions and pointers to member functions, with these properties. -/
def functional (kind : Fin 3) (i : ℕ) (ellipsis noex : Bool) : Ty :=
  match kind with
  | 0 => .fn i ellipsis noex
  | 1 => .ptr {} (.fn i ellipsis noex)
  | 2 => .memfn {} i ellipsis noex

/-- C170, what is true of `noexcept`: it is added to and removed from functions, pointers to functions and pointers to member functions, and references
to these, and nothing else is changed; other types are left as they are. Missing: functions with an ellipsis, for which see
`C170_noexcept_violated`. -/
theorem C170_noexcept_partial (k : Ref) (q : CV) :
    (∀ kind i n, addNoexcept (make k q (functional kind i false n)) = make k q (functional kind i false true) ∧
      removeNoexcept (make k q (functional kind i false n)) = make k q (functional kind i false false)) ∧
    ∀ p, Plain p → Qualifiable p → Refers k p → (∀ kind i e n, p ≠ functional kind i e n) →
      addNoexcept (make k q p) = make k q p ∧ removeNoexcept (make k q p) = make k q p := by
  have cc : ∀ p p', Plain p → Plain p' → Qualifiable p' → Refers k p' → copyCvref p (make k q p') = make k q p := by
    intro p p' h h' hq hr
    have := (Meta.C167_copy .none k {} q p p' h h' hq hr).2.2.2.2.1
    rwa [make_none, qualify_plain p h] at this
  refine ⟨?_, ?_⟩
  · intro kind i n
    have pl : ∀ n, Plain (functional kind i false n) := by
      intro n
      match kind with
      | 0 => exact trivial
      | 1 => exact rfl
      | 2 => exact rfl
    have rf : ∀ n, Refers k (functional kind i false n) := by
      intro n
      right
      intro q' e
      match kind with
      | 0 => cases e
      | 1 => cases e
      | 2 => cases e
    unfold addNoexcept removeNoexcept
    rw [removeCvref_make k q _ (pl n)]
    match kind with
    | 0 =>
      obtain ⟨c, v⟩ := q
      cases k <;> cases n <;> exact ⟨rfl, rfl⟩
    | 1 =>
      have a := cc (functional 1 i false true) (functional 1 i false n) (pl true) (pl n) trivial (rf n)
      have b := cc (functional 1 i false false) (functional 1 i false n) (pl false) (pl n) trivial (rf n)
      cases n
      · exact ⟨a, b⟩
      · exact ⟨a, b⟩
    | 2 =>
      have a := cc (functional 2 i false true) (functional 2 i false n) (pl true) (pl n) trivial (rf n)
      have b := cc (functional 2 i false false) (functional 2 i false n) (pl false) (pl n) trivial (rf n)
      cases n
      · exact ⟨a, b⟩
      · exact ⟨a, b⟩
  · intro p hp hq hr hn
    unfold addNoexcept removeNoexcept
    rw [removeCvref_make k q p hp]
    have e : addNoexceptCore p = p ∧ removeNoexceptCore p = p := by
      cases p with
      | fn i e n => exact absurd rfl (hn 0 i e n)
      | memfn q0 i e n =>
        obtain rfl : q0 = {} := hp
        exact absurd rfl (hn 2 i e n)
      | ptr q0 u =>
        obtain rfl : q0 = {} := hp
        cases u with
        | fn i e n => exact absurd rfl (hn 1 i e n)
        | _ => exact ⟨rfl, rfl⟩
      | _ => exact ⟨rfl, rfl⟩
    rw [e.1, e.2]
    exact ⟨cc p p hp hp hq hr, cc p p hp hp hq hr⟩

example : addNoexcept (.lref (.fn 0 false false)) = .lref (.fn 0 false true) := by decide

/-- C170 is violated: `noexcept` is not added to or removed from functions with an ellipsis, like `int(const char*, ...)`. -/
theorem C170_noexcept_violated :
    (¬ ∀ kind i e n, addNoexcept (functional kind i e n) = functional kind i e true) ∧
    ¬ ∀ kind i e n, removeNoexcept (functional kind i e n) = functional kind i e false := by
  refine ⟨fun h => ?_, fun h => ?_⟩
  · exact absurd (h 0 0 true false) (by decide)
  · exact absurd (h 1 0 true true) (by decide)

end Verif.Props.MetaPointers
