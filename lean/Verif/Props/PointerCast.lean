import Verif.Proofs.PointerCast

/-! # C135: `pointer_cast` -/

namespace Verif.Props.PointerCast

open Verif.Spec.Pointers Verif.Model.PointerCast Verif.Proofs.PointerCast

/-- A hierarchy for the examples: class 1 is derived from class 0 at offset 8, and from class 2 at offset 16; 2 is
polymorphic.  There is a 1 at address 0x100. -/
def sample : Hierarchy where
  inherits d b := d == 1 && (b == 0 || b == 2)
  polymorphic c := c == 2 || c == 1
  offset _ b := if b = 0 then 8 else 16
  object d b p := if d = 1 ∧ b = 0 ∧ p = 0x108 then some 0x100 else if d = 1 ∧ b = 2 ∧ p = 0x110 then some 0x100 else none
  antisymm d b h := by
    simp only [Bool.and_eq_true, Bool.or_eq_true, beq_iff_eq] at h
    obtain ⟨rfl, rfl | rfl⟩ := h <;> rfl
  object_offset d b p q h := by
    split_ifs at h with h1 h2
    · obtain ⟨rfl, rfl, rfl⟩ := h1
      cases h
      exact ⟨by decide, by decide, by decide⟩
    · obtain ⟨rfl, rfl, rfl⟩ := h2
      cases h
      exact ⟨by decide, by decide, by decide⟩

/-- Every promised conversion compiles: the recursion ends, no assertion fails and every cast it performs is one C++ allows
between those types - none drops a qualifier except the `const_cast` for it. -/
theorem C135_compiles (H : Hierarchy) (src dst : Typ) (hs : WellFormed src) (hd : WellFormed dst) (h : Promised src dst) :
    ∃ l, pointerCast H src dst = .casts l ∧ ∀ s ∈ l, legal H s := by
  cases src with
  | null =>
    cases dst with
    | null => exact absurd h (by simp [Promised])
    | pointer c t =>
      refine ⟨_, rfl, fun s hs => ?_⟩
      rw [List.mem_singleton.mp hs]; trivial
    | int t =>
      refine ⟨_, rfl, fun s hs => ?_⟩
      rw [List.mem_singleton.mp hs]; trivial
  | pointer c1 t1 =>
    cases dst with
    | null => exact absurd h (by simp [Promised])
    | pointer c2 t2 =>
      by_cases hf : isFunction t1 = true ∨ isFunction t2 = true
      · obtain ⟨l, hl, hg, _⟩ := (plan_functions H c1 c2 t1 t2 hf hs hd).1 h
        exact ⟨l, hl, hg⟩
      · obtain ⟨l, hl, hg, _⟩ := plan_objects H c1 c2 t1 t2 (by simpa using fun h' => hf (Or.inl h'))
          (by simpa using fun h' => hf (Or.inr h'))
        exact ⟨l, hl, hg⟩
    | int t =>
      obtain ⟨l, hl, hg, _⟩ := plan_toInt H c1 t1 t
      exact ⟨l, hl, hg⟩
  | int t =>
    cases dst with
    | null => exact absurd h (by simp [Promised])
    | pointer c2 t2 =>
      obtain ⟨l, hl, hg, _⟩ := plan_ofInt H c2 t2 t
      exact ⟨l, hl, hg⟩
    | int t' => exact absurd h (by simp [Promised])

example : Promised (.pointer ⟨true, false⟩ (.cls 2)) (.pointer CV.none (.cls 1)) ∧
    Promised (.pointer CV.none (.func 3 false)) (.pointer CV.none (.func 3 true)) ∧
    Promised (.pointer ⟨true, true⟩ .void) (.pointer CV.none (.func 3 true)) := by simp [Promised]

/-- Nothing else compiles: it is a failed assertion, not a value. -/
theorem C135_rejects (H : Hierarchy) (src dst : Typ) (hs : WellFormed src) (hd : WellFormed dst) (h : ¬ Promised src dst) :
    pointerCast H src dst = .rejected := by
  cases src with
  | null => cases dst <;> first | rfl | exact absurd trivial h
  | pointer c1 t1 =>
    cases dst with
    | null => rfl
    | pointer c2 t2 =>
      by_cases hf : isFunction t1 = true ∨ isFunction t2 = true
      · exact (plan_functions H c1 c2 t1 t2 hf hs hd).2 h
      · exfalso
        apply h
        cases t1 <;> cases t2 <;> simp_all [isFunction, Promised]
    | int t => exact absurd trivial h
  | int t =>
    cases dst with
    | null => rfl
    | pointer c2 t2 => exact absurd trivial h
    | int t' => rfl

example : ¬ Promised (.pointer CV.none (.func 3 false)) (.pointer CV.none (.func 4 false)) ∧
    ¬ Promised (.pointer CV.none (.func 3 false)) (.pointer CV.none (.obj 0)) ∧
    ¬ Promised (.int ⟨true, false, false, false⟩) (.int ⟨false, false, false, false⟩) := by simp [Promised]

/-- A conversion between pointers keeps the address, unless both point to classes one of which is derived from the other. -/
theorem C135_address (H : Hierarchy) (c1 c2 : CV) (t1 t2 : Ty) (hs : WellFormed (.pointer c1 t1)) (hd : WellFormed (.pointer c2 t2))
    (h : Promised (.pointer c1 t1) (.pointer c2 t2))
    (hu : ∀ x y, t1 = .cls x → t2 = .cls y → H.inherits x y = false ∧ H.inherits y x = false) (a : Addr) :
    result H (.pointer c1 t1) (.pointer c2 t2) (.addr a) = some (.addr a) := by
  unfold result
  by_cases hf : isFunction t1 = true ∨ isFunction t2 = true
  · obtain ⟨l, hl, _, hr⟩ := (plan_functions H c1 c2 t1 t2 hf hs hd).1 h
    rw [hl]; exact congrArg some (hr a)
  · obtain ⟨l, hl, _, hr⟩ := plan_objects H c1 c2 t1 t2 (by simpa using fun h' => hf (Or.inl h'))
      (by simpa using fun h' => hf (Or.inr h'))
    rw [hl]
    refine congrArg some ((hr a).trans (congrArg Value.addr ?_))
    cases t1 <;> cases t2 <;> try rfl
    rename_i x y
    obtain ⟨h1, h2⟩ := hu x y rfl rfl
    simp [adjust, h1, h2]

example : result sample (.pointer ⟨true, false⟩ (.ptr CV.none (.cls 1))) (.pointer CV.none (.cls 0)) (.addr 0x500) = some (.addr 0x500) :=
  C135_address sample _ _ _ _ (by trivial) (by trivial) (by trivial) (by intro x y h; cases h) _

/-- A pointer to an object becomes a pointer to its base; a null pointer stays null. -/
theorem C135_upcast (H : Hierarchy) (c1 c2 : CV) (d b : ℕ) (h : H.inherits d b = true) (a : Addr) :
    result H (.pointer c1 (.cls d)) (.pointer c2 (.cls b)) (.addr a) = some (.addr (if a = 0 then 0 else a + H.offset d b)) := by
  obtain ⟨l, hl, _, hr⟩ := plan_objects H c1 c2 (.cls d) (.cls b) rfl rfl
  unfold result
  rw [hl]
  refine congrArg some ((hr a).trans (congrArg Value.addr ?_))
  simp only [adjust, if_pos (show _ ∧ _ from ⟨h, cls_ne H h⟩)]

example : result sample (.pointer ⟨true, true⟩ (.cls 1)) (.pointer CV.none (.cls 2)) (.addr 0x100) = some (.addr 0x110) :=
  C135_upcast sample _ _ 1 2 rfl 0x100

/-- A pointer to the base of an object of the derived class becomes a pointer to that object, whether or not the base is
polymorphic; a null pointer stays null; and if the base is polymorphic and not part of such an object the result is null. -/
theorem C135_downcast (H : Hierarchy) (c1 c2 : CV) (d b : ℕ) (h : H.inherits d b = true) (a : Addr) :
    (∀ q, H.object d b a = some q → result H (.pointer c1 (.cls b)) (.pointer c2 (.cls d)) (.addr a) = some (.addr q)) ∧
    (a = 0 → result H (.pointer c1 (.cls b)) (.pointer c2 (.cls d)) (.addr a) = some (.addr 0)) ∧
    (H.polymorphic b = true → H.object d b a = none →
      result H (.pointer c1 (.cls b)) (.pointer c2 (.cls d)) (.addr a) = some (.addr 0)) := by
  obtain ⟨l, hl, _, hr⟩ := plan_objects H c1 c2 (.cls b) (.cls d) rfl rfl
  have e : result H (.pointer c1 (.cls b)) (.pointer c2 (.cls d)) (.addr a) = some (.addr (adjust H (.cls b) (.cls d) a)) := by
    unfold result
    rw [hl]
    exact congrArg some (hr a)
  have hn : ¬ (H.inherits b d = true ∧ b ≠ d) := fun h' => by
    have := H.antisymm d b h
    rw [h'.1] at this; cases this
  have ea : adjust H (.cls b) (.cls d) a =
      if H.polymorphic b = true then (H.object d b a).getD 0 else if a = 0 then 0 else a - H.offset d b := by
    simp only [adjust, if_neg hn, if_pos (show _ ∧ _ from ⟨h, cls_ne H h⟩)]
  rw [e, ea]
  refine ⟨fun q hq => ?_, fun h0 => ?_, fun hp hq => ?_⟩
  · obtain ⟨h1, _, h3⟩ := H.object_offset d b a q hq
    rw [hq, if_neg h3]
    split_ifs
    · rfl
    · rw [h1, BitVec.add_sub_cancel]
  · subst h0
    split_ifs
    · cases hq : H.object d b 0 with
      | none => rfl
      | some q => exact absurd rfl (H.object_offset d b 0 q hq).2.2
    · rfl
    · exact absurd rfl ‹¬ _›
  · rw [if_pos hp, hq]; rfl

example : result sample (.pointer ⟨true, false⟩ (.cls 0)) (.pointer CV.none (.cls 1)) (.addr 0x108) = some (.addr 0x100) :=
  (C135_downcast sample _ _ 1 0 rfl 0x108).1 0x100 rfl

example : result sample (.pointer CV.none (.cls 2)) (.pointer CV.none (.cls 1)) (.addr 0x110) = some (.addr 0x100) ∧
    result sample (.pointer CV.none (.cls 2)) (.pointer CV.none (.cls 1)) (.addr 0x210) = some (.addr 0) :=
  ⟨(C135_downcast sample _ _ 1 2 rfl 0x110).1 0x100 rfl, (C135_downcast sample _ _ 1 2 rfl 0x210).2.2 rfl rfl⟩

/-- A pointer to an object, converted to a base and back, is the pointer again. -/
theorem C135_round (H : Hierarchy) (c1 c2 c3 : CV) (d b : ℕ) (h : H.inherits d b = true) (a : Addr)
    (ho : a = 0 ∨ H.object d b (a + H.offset d b) = some a) :
    ∃ p, result H (.pointer c1 (.cls d)) (.pointer c2 (.cls b)) (.addr a) = some p ∧
      result H (.pointer c2 (.cls b)) (.pointer c3 (.cls d)) p = some (.addr a) := by
  refine ⟨_, C135_upcast H c1 c2 d b h a, ?_⟩
  rcases ho with rfl | ho
  · rw [if_pos rfl]; exact (C135_downcast H c2 c3 d b h 0).2.1 rfl
  · rw [if_neg (H.object_offset d b _ _ ho).2.1]
    exact (C135_downcast H c2 c3 d b h _).1 a ho

example : sample.object 1 2 (0x100 + sample.offset 1 2) = some 0x100 := by decide

/-- A pointer becomes the integer, in the range of the type, that stands for its address; an integer becomes the address it
stands for; so a pointer survives the journey through any integer type or enumeration. -/
theorem C135_integers (H : Hierarchy) (c1 c2 : CV) (t1 t2 : Ty) (i : IntTy) :
    (∀ a, ∃ z, result H (.pointer c1 t1) (.int i) (.addr a) = some (.num z) ∧ i.Has z ∧ Denotes z a ∧
      result H (.int i) (.pointer c2 t2) (.num z) = some (.addr a)) ∧
    (∀ z, ∃ a, result H (.int i) (.pointer c2 t2) (.num z) = some (.addr a) ∧ Denotes z a) := by
  obtain ⟨l, hl, _, hr⟩ := plan_toInt H c1 t1 i
  obtain ⟨m, hm, _, hq⟩ := plan_ofInt H c2 t2 i
  unfold result
  rw [hl, hm]
  constructor
  · intro a
    obtain ⟨z, h1, h2, h3⟩ := hr a
    obtain ⟨b, h4, h5⟩ := hq z
    refine ⟨z, congrArg some h1, h2, h3, ?_⟩
    rw [denotes_inj (Int.ModEq.refl z) h3 h5]
    exact congrArg some h4
  · intro z
    obtain ⟨a, h1, h2⟩ := hq z
    exact ⟨a, congrArg some h1, h2⟩

example : Denotes (-1) 0xFFFFFFFFFFFFFFFF ∧ IntTy.Has ⟨true, false, true, false⟩ (-1) := by
  refine ⟨?_, ?_⟩
  · unfold Denotes; decide
  · unfold IntTy.Has; norm_num

/-- `nullptr` becomes the null pointer, or zero. -/
theorem C135_null (H : Hierarchy) (c : CV) (t : Ty) (i : IntTy) (v : Value) (hv : v = .addr 0) :
    result H .null (.pointer c t) v = some (.addr 0) ∧ result H .null (.int i) v = some (.num 0) := by
  subst hv
  exact ⟨rfl, rfl⟩

example : result sample .null (.pointer ⟨true, false⟩ (.cls 1)) (.addr 0) = some (.addr 0) :=
  (C135_null sample _ _ ⟨true, false, true, false⟩ _ rfl).1

end Verif.Props.PointerCast
