import Verif.Model.StrongTypedef
import Verif.Props.IntVector
import Mathlib.Tactic.SplitIfs
/-!
# C163: strong typedefs of integers

A strong typedef holds an integer or a reference to one; `fetch m a` is the integer, `m` being the integers that exist elsewhere. An operator does not compile (`rejected`), is `undefined`, or is `ok` with a result. `Reduced t x r` (claim C139): `r` is the value of type `t` which is `x` modulo `2^bits`.
-/
namespace Verif.Props.StrongTypedef
open Verif.Spec.CInt Verif.Model Verif.Model.IntVector Verif.Model.StrongTypedef

theorem promote_wide {t : Ty} (h : 32 ≤ t.bits) : CInt.promote t = t := by
  simp [CInt.promote]; omega

theorem promote_narrow {t : Ty} (h : t.bits < 32) : CInt.promote t ≠ t := by
  simp only [CInt.promote, h, if_true]
  intro e
  rw [← e] at h
  simp at h

/-- **C163 (comparisons).** Two strong typedefs relate as their values do, convert to bool as their values do and have the hashes of their values, whether they hold integers or references. -/
theorem C163_compare (m : Mem) (a b : Held) (x y : ℤ) (ha : fetch m a = some x) (hb : fetch m b = some y) (H : ℤ → ℕ) :
    (relate .eq m a b = some true ↔ x = y) ∧ (relate .ne m a b = some true ↔ x ≠ y) ∧
    (relate .lt m a b = some true ↔ x < y) ∧ (relate .le m a b = some true ↔ x ≤ y) ∧
    (relate .gt m a b = some true ↔ x > y) ∧ (relate .ge m a b = some true ↔ x ≥ y) ∧
    (∀ c, relate c m a b ≠ none) ∧
    (boolean m a = some true ↔ x ≠ 0) ∧ (boolean m a = some false ↔ x = 0) ∧
    hashOf H m a = some (H x) := by
  simp [relate, ha, hb, Comparison.eval, boolean, hashOf]

example : relate .lt (fun _ => some 7) (.ref 3) (.val 8) = some true := by decide

/-- **C163 (inequality and negation).** If the value type's own operators are consistent, or are missing, `!=` is the opposite of `==` and `!` of the conversion to bool. -/
theorem C163_not {V : Type} (eq : V → V → Bool) (ne : Option (V → V → Bool)) (conv : V → Bool) (no : Option (V → Bool))
    (hne : ∀ f, ne = some f → ∀ x y, f x y = !eq x y) (hno : ∀ f, no = some f → ∀ x, f x = !conv x) :
    (∃ f, notEqual ne (some eq) = some f ∧ ∀ x y, f x y = !eq x y) ∧
    (∃ f, logicalNot no (some conv) = some f ∧ ∀ x, f x = !conv x) := by
  refine ⟨?_, ?_⟩
  · cases ne with
    | none => exact ⟨_, rfl, fun _ _ => rfl⟩
    | some f => exact ⟨f, rfl, hne f rfl⟩
  · cases no with
    | none => exact ⟨_, rfl, fun _ => rfl⟩
    | some f => exact ⟨f, rfl, hno f rfl⟩

/-- The value types with all operators of `addable` and `subtractable`. -/
def Arithmetic (v : ValueType) : Prop := 32 ≤ v.ty.bits ∧ v.kind = .value

/-- **C163 (arithmetic), full statement.** Sums, differences and opposites of strong typedefs are strong typedefs of the sum, difference and opposite, if the type can hold it. -/
def Statement : Prop :=
  ∀ (v : ValueType) (m : Mem) (temp : ℕ) (a b : Held) (x y : ℤ), m temp = none → 0 < v.ty.bits →
    fetch m a = some x → fetch m b = some y → v.ty.Has x → v.ty.Has y →
    (v.ty.Has (x + y) → ∃ r, combine .add v m temp a b = .ok r ∧ fetch m r = some (x + y)) ∧
    (v.ty.Has (x - y) → ∃ r, combine .sub v m temp a b = .ok r ∧ fetch m r = some (x - y)) ∧
    (v.ty.Has (-x) → ∃ r, unaryMinus v m temp a = .ok r ∧ fetch m r = some (-x)) ∧
    (∃ r, unaryPlus v m temp a = .ok r ∧ fetch m r = some x)

/-- The same for value types that are not references and have at least 32 bits. Missing: narrower types and references to constants. -/
theorem C163_arithmetic_partial (v : ValueType) (hv : Arithmetic v) (m : Mem) (temp : ℕ) (a b : Held) (x y : ℤ)
    (ha : fetch m a = some x) (hb : fetch m b = some y) :
    (v.ty.Has (x + y) → combine .add v m temp a b = .ok (.val (x + y))) ∧
    (v.ty.Has (x - y) → combine .sub v m temp a b = .ok (.val (x - y))) ∧
    (v.ty.Has (-x) → unaryMinus v m temp a = .ok (.val (-x))) ∧
    unaryPlus v m temp a = .ok (.val x) := by
  obtain ⟨h32, hk⟩ := hv
  have hp := promote_wide h32
  have h0 : 0 < v.ty.bits := by omega
  simp only [combine, unaryMinus, unaryPlus, make, hp, hk, ha, hb, Op.eval]
  refine ⟨fun h => ?_, fun h => ?_, fun h => ?_, ?_⟩
  · simp [Proofs.IntVector.result_has h0 h]
  · simp [Proofs.IntVector.result_has h0 h]
  · simp [Proofs.IntVector.result_has h0 h]
  · simp

/-- **C163 (unsigned arithmetic).** Values of unsigned types of at least 32 bits wrap around. -/
theorem C163_unsigned (v : ValueType) (hv : Arithmetic v) (hu : v.ty.signed = false) (m : Mem) (temp : ℕ) (a b : Held) (x y : ℤ)
    (ha : fetch m a = some x) (hb : fetch m b = some y) :
    (∃ r, combine .add v m temp a b = .ok (.val r) ∧ Spec.Parts.Reduced v.ty (x + y) r) ∧
    (∃ r, combine .sub v m temp a b = .ok (.val r) ∧ Spec.Parts.Reduced v.ty (x - y) r) ∧
    (∃ r, unaryMinus v m temp a = .ok (.val r) ∧ Spec.Parts.Reduced v.ty (-x) r) := by
  obtain ⟨h32, hk⟩ := hv
  have hp := promote_wide h32
  have h0 : 0 < v.ty.bits := by omega
  have key : ∀ z, ∃ r, result v.ty z = some r ∧ Spec.Parts.Reduced v.ty z r := fun z => Proofs.IntVector.result_reduced h0 (.inl hu)
  simp only [combine, unaryMinus, make, hp, hk, ha, hb, Op.eval]
  refine ⟨?_, ?_, ?_⟩
  · obtain ⟨r, hr, h⟩ := key (x + y); exact ⟨r, by simp [hr], h⟩
  · obtain ⟨r, hr, h⟩ := key (x - y); exact ⟨r, by simp [hr], h⟩
  · obtain ⟨r, hr, h⟩ := key (-x); exact ⟨r, by simp [hr], h⟩

example : combine .add ⟨⟨32, true⟩, .value⟩ (fun _ => none) 0 (.val 3) (.val (-5)) = .ok (.val (-2)) ∧
    combine .sub ⟨⟨32, false⟩, .value⟩ (fun _ => none) 0 (.val 3) (.val 5) = .ok (.val 4294967294) := by
  constructor <;> rfl

/-- **C163 is violated for narrow types**: none of `a + b`, `a - b`, `+a`, `-a` compiles for a value type of less than 32 bits. -/
theorem C163_narrow_violated (v : ValueType) (h : v.ty.bits < 32) (m : Mem) (temp : ℕ) (a b : Held) :
    combine .add v m temp a b = .rejected ∧ combine .sub v m temp a b = .rejected ∧
    unaryPlus v m temp a = .rejected ∧ unaryMinus v m temp a = .rejected := by
  simp [combine, unaryPlus, unaryMinus, make, promote_narrow h]

/-- **C163 is violated for references to constants**: `a + b` and so on compile, and the result refers to an integer that no longer exists. -/
theorem C163_dangling_violated (v : ValueType) (h : 32 ≤ v.ty.bits) (hk : v.kind = .cref) (m : Mem) (temp : ℕ) (a b : Held) (x y : ℤ)
    (ht : m temp = none) (ha : fetch m a = some x) (hb : fetch m b = some y) (hx : v.ty.Has (x + y)) (hy : v.ty.Has (x - y)) :
    (∃ r, combine .add v m temp a b = .ok r ∧ fetch m r = none) ∧
    (∃ r, combine .sub v m temp a b = .ok r ∧ fetch m r = none) ∧
    (∃ r, unaryPlus v m temp a = .ok r ∧ fetch m r = none) := by
  have hp := promote_wide h
  have h0 : 0 < v.ty.bits := by omega
  simp only [combine, unaryPlus, make, hp, hk, ha, hb, Op.eval]
  exact ⟨⟨.ref temp, by simp [Proofs.IntVector.result_has h0 hx], ht⟩, ⟨.ref temp, by simp [Proofs.IntVector.result_has h0 hy], ht⟩,
    ⟨.ref temp, by simp, ht⟩⟩

theorem C163_violated : ¬ Statement := fun h => by
  have := ((h ⟨⟨16, true⟩, .value⟩ (fun _ => none) 0 (.val 1) (.val 2) 1 2 rfl (by decide) rfl rfl (by decide) (by decide)).1 (by decide))
  obtain ⟨r, hr, -⟩ := this
  rw [(C163_narrow_violated _ (by decide) _ _ _ _).1] at hr
  cases hr

theorem lane_step {t : Ty} (h0 : 0 < t.bits) {x : ℤ} {o : Op} {d : ℤ} (ho : ∀ p : Ty, o.eval p x 1 = result p (x + d))
    (hx : t.Has (x + d)) : lane o t x 1 = some (x + d) := by
  simp [lane, ho, Proofs.IntVector.result_has (Proofs.IntVector.promote_bits h0) (Proofs.IntVector.promote_has h0 hx),
    Proofs.CInt.conv_has h0 hx]

/-- The step of `++` and `--`. -/
def step : Op → ℤ
  | .sub => -1
  | _ => 1

theorem eval_step {o : Op} (ho : o = .add ∨ o = .sub) (x : ℤ) (p : Ty) : o.eval p x 1 = result p (x + step o) := by
  rcases ho with rfl | rfl <;> simp [Op.eval, step, Int.sub_eq_add_neg]

/-- **C163 (`++x`, `--x`).** For all widths, and for integers and references to them: the value becomes one more (less) if the type can hold that, and nothing else changes. -/
theorem C163_prefix (v : ValueType) (hk : v.kind ≠ .cref) (h0 : 0 < v.ty.bits) (o : Op) (ho : o = .add ∨ o = .sub) (m : Mem) (a : Held) (x : ℤ)
    (ha : fetch m a = some x) (hx : v.ty.Has (x + step o)) :
    ∃ a' m', prefixStep o v m a = .ok (a', m') ∧ fetch m' a' = some (x + step o) ∧
      (∀ p, a = .ref p → a' = .ref p ∧ ∀ q, q ≠ p → m' q = m q) ∧ (∀ y, a = .val y → m' = m) := by
  have hl := lane_step h0 (eval_step ho x) hx
  cases a with
  | val y => exact ⟨_, _, by simp [prefixStep, hk, ha, hl, put]; exact ⟨rfl, rfl⟩, rfl, by simp, by simp⟩
  | ref p =>
    refine ⟨_, _, by simp [prefixStep, hk, ha, hl, put]; exact ⟨rfl, rfl⟩, by simp [fetch], ?_, by simp⟩
    rintro q ⟨rfl⟩
    exact ⟨rfl, fun r hr => by simp [Function.update, hr]⟩

example : prefixStep .add ⟨⟨8, true⟩, .value⟩ (fun _ => none) (.val 5) = .ok (.val 6, fun _ => none) := rfl

/-- **C163 (`x++`, `x--`).** For integers of all widths: the value becomes one more (less), and the result holds the former value. -/
theorem C163_postfix_partial (v : ValueType) (hk : v.kind = .value) (h0 : 0 < v.ty.bits) (o : Op) (ho : o = .add ∨ o = .sub) (m : Mem) (temp : ℕ) (x : ℤ)
    (hx : v.ty.Has (x + step o)) :
    postfixStep o v m temp (.val x) = .ok (.val x, .val (x + step o), m) := by
  have hl := lane_step h0 (eval_step ho x) hx
  simp [postfixStep, prefixStep, hk, fetch, hl, put, make]

/-- **C163 is violated for references**: the trait adds `x++` and `x--`, but no use of them compiles. -/
theorem C163_postfix_violated (v : ValueType) (hk : v.kind = .lref) (h0 : 0 < v.ty.bits) (o : Op) (ho : o = .add ∨ o = .sub) (m : Mem) (temp : ℕ) (a : Held) (x : ℤ)
    (ha : fetch m a = some x) (hx : v.ty.Has (x + step o)) :
    (∃ r, prefixStep o v m a = .ok r) ∧ postfixStep o v m temp a = .rejected := by
  have hl := lane_step h0 (eval_step ho x) hx
  simp [postfixStep, prefixStep, hk, ha, hl, make]

example : fetch (fun _ => some 5) (.ref 2) = some 5 ∧ (⟨32, true⟩ : Ty).Has (5 + step .add) := by decide

/-- **C163 (copies).** A copy has the value of the original. A write to a copy of a strong typedef of a reference is seen by the original and by the integer itself; one to a copy of an integer is not. -/
theorem C163_copy (v : ValueType) (hk : v.kind ≠ .rref) (m : Mem) (a : Held) (y : ℤ) :
    ∃ b, copy v a = .ok b ∧ fetch m b = fetch m a ∧
      (∀ p, a = .ref p → (put m b y).2 p = some y ∧ fetch (put m b y).2 a = some y) ∧
      (∀ x, a = .val x → fetch (put m b y).2 a = some x ∧ fetch (put m b y).2 (put m b y).1 = some y) := by
  refine ⟨a, by simp [copy, hk], rfl, ?_, ?_⟩
  · rintro p rfl; simp [put, fetch]
  · rintro x rfl; simp [put, fetch]

/-- **C163 (assignment).** Of integers, an assignment gives the value of the other; of references, it does not compile. -/
theorem C163_assign (v : ValueType) (m : Mem) (b : Held) :
    (v.kind = .value → ∃ r, assign v b = .ok r ∧ fetch m r = fetch m b) ∧ (v.kind ≠ .value → assign v b = .rejected) := by
  by_cases h : v.kind = .value <;> simp [assign, h]

/-- **C163 (pointers).** A pointer plus (minus) a strong typedef is the pointer as many elements further (back), if that is in the array or just past its end. -/
theorem C163_pointer (n p q : ℕ) (m : Mem) (a : Held) (x : ℤ) (ha : fetch m a = some x) (hq : q ≤ n) :
    (pointer .add n m p a = some q ↔ (q : ℤ) = p + x) ∧ (pointer .sub n m p a = some q ↔ (q : ℤ) = p - x) := by
  constructor <;> simp only [pointer, ha] <;> simp <;> omega

example : pointer .sub 10 (fun _ => none) 7 (.val 3) = some 4 := by decide

end Verif.Props.StrongTypedef
