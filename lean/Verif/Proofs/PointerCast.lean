import Verif.Model.PointerCast
import Mathlib.Tactic.Linarith
import Mathlib.Tactic.NormNum

/-! # Lemmas on `pointer_cast` -/

namespace Verif.Proofs.PointerCast

open Verif.Spec.Pointers Verif.Model.PointerCast

/-- The plan is a list of legal casts that maps addresses by `f`. -/
def Good (H : Hierarchy) (f : Addr → Addr) (p : Plan) : Prop :=
  ∃ l, p = .casts l ∧ (∀ s ∈ l, legal H s) ∧ ∀ a, run H l (.addr a) = .addr (f a)

theorem good_nil (H : Hierarchy) : Good H id (.casts []) := ⟨[], rfl, by simp, fun _ => rfl⟩

theorem good_one {H : Hierarchy} {s : Step} {f : Addr → Addr} (hs : legal H s) (hf : ∀ a, step H s (.addr a) = .addr (f a)) :
    Good H f (.casts [s]) := ⟨[s], rfl, by simpa using hs, fun a => hf a⟩

theorem good_after {H : Hierarchy} {s : Step} {f g : Addr → Addr} {p : Plan} (hs : legal H s)
    (hf : ∀ a, step H s (.addr a) = .addr (f a)) (hp : Good H g p) : Good H (g ∘ f) (p.after s) := by
  obtain ⟨l, rfl, hl, hr⟩ := hp
  refine ⟨s :: l, rfl, ?_, fun a => ?_⟩
  · intro x hx
    rcases List.mem_cons.mp hx with rfl | hx
    · exact hs
    · exact hl x hx
  · show run H l (step H s (.addr a)) = _
    rw [hf, hr]; rfl

theorem good_andThen {H : Hierarchy} {s : Step} {f g : Addr → Addr} {p : Plan} (hs : legal H s)
    (hf : ∀ a, step H s (.addr a) = .addr (f a)) (hp : Good H g p) : Good H (f ∘ g) (p.andThen s) := by
  obtain ⟨l, rfl, hl, hr⟩ := hp
  refine ⟨l ++ [s], rfl, ?_, fun a => ?_⟩
  · intro x hx
    rcases List.mem_append.mp hx with hx | hx
    · exact hl x hx
    · rw [List.mem_singleton.mp hx]; exact hs
  · show List.foldl _ _ (l ++ [s]) = _
    rw [List.foldl_append]
    show step H s (run H l (.addr a)) = _
    rw [hr, hf]; rfl

theorem cv_none_le (c : CV) : CV.none.le c := ⟨fun h => absurd h (by simp [CV.none]), fun h => absurd h (by simp [CV.none])⟩

theorem cv_le_refl (c : CV) : c.le c := ⟨id, id⟩

/-- A `static_cast` between equal types keeps the address. -/
theorem step_same (H : Hierarchy) (k : Kind) (hk : k = .static ∨ k = .const) (c1 c2 : CV) (t : Ty) (a : Addr) :
    step H ⟨k, .pointer c1 t, .pointer c2 t⟩ (.addr a) = .addr a := by
  rcases hk with rfl | rfl <;> cases t <;> simp [step]
  intro h; exact h.symm

/-- Casts other than those between classes keep the address. -/
theorem step_plain (H : Hierarchy) (k : Kind) (c1 c2 : CV) (t1 t2 : Ty)
    (h : (∀ n, t1 ≠ .cls n) ∨ (∀ n, t2 ≠ .cls n) ∨ k = .reinterpret) (a : Addr) :
    step H ⟨k, .pointer c1 t1, .pointer c2 t2⟩ (.addr a) = .addr a := by
  rcases h with h | h | rfl
  · cases t1 <;> first | exact absurd rfl (h _) | (cases k <;> simp [step])
  · cases t2 <;> first | exact absurd rfl (h _) | (cases k <;> cases t1 <;> simp [step])
  · cases t1 <;> cases t2 <;> simp [step]

/-- Only the qualifiers change. -/
theorem plan_cv (H : Hierarchy) (n : ℕ) (c1 c2 : CV) (t : Ty) (ht : isFunction t = false) :
    Good H id (plan H (n + 1) (.pointer c1 t) (.pointer c2 t)) := by
  unfold plan
  dsimp only
  simp only [and_true, if_true]
  split_ifs with h1 h2
  · exact good_nil H
  · have e : (Plan.casts [⟨.const, .pointer c1 t, .pointer CV.none t⟩, ⟨.static, .pointer CV.none t, .pointer c2 t⟩]) =
        Plan.after ⟨.const, .pointer c1 t, .pointer CV.none t⟩ (.casts [⟨.static, .pointer CV.none t, .pointer c2 t⟩]) := rfl
    rw [e]
    refine good_after (f := id) (g := id) (by exact ⟨rfl, ht⟩) (fun a => step_same H _ (Or.inr rfl) _ _ _ _) ?_
    exact good_one (by exact ⟨cv_none_le _, Or.inl rfl⟩) (fun a => step_same H _ (Or.inl rfl) _ _ _ _)
  · simp only [not_not] at h2
    rw [h2]
    exact good_one (by exact ⟨cv_none_le _, Or.inl rfl⟩) (fun a => step_same H _ (Or.inl rfl) _ _ _ _)

/-- To or from `void`. -/
theorem plan_void (H : Hierarchy) (n : ℕ) (c1 c2 : CV) (t1 t2 : Ty) (h1 : isFunction t1 = false) (h2 : isFunction t2 = false)
    (h : t1 = .void ∨ t2 = .void) : Good H id (plan H (n + 2) (.pointer c1 t1) (.pointer c2 t2)) := by
  by_cases e : t1 = t2
  · subst e; exact plan_cv H _ _ _ _ h1
  · unfold plan
    dsimp only
    rw [if_neg (fun h => e h.2), if_neg e, if_neg (by simp [h1, h2]), if_pos (by tauto)]
    refine good_after (f := id) (g := id) ?_ (fun a => step_plain H _ _ _ _ _ ?_ _) (plan_cv H _ _ _ _ h2)
    · refine ⟨cv_le_refl _, ?_⟩
      rcases h with rfl | rfl
      · exact Or.inr (Or.inr (Or.inl ⟨rfl, h2⟩))
      · exact Or.inr (Or.inl ⟨rfl, h1⟩)
    · rcases h with rfl | rfl
      · exact Or.inl (by simp)
      · exact Or.inr (Or.inl (by simp))

/-- The address of the base, the derived object, or the same address. -/
def adjust (H : Hierarchy) (t1 t2 : Ty) (a : Addr) : Addr :=
  match t1, t2 with
  | .cls x, .cls y =>
    if H.inherits x y = true ∧ x ≠ y then (if a = 0 then 0 else a + H.offset x y)
    else if H.inherits y x = true ∧ y ≠ x then
      (if H.polymorphic x = true then (H.object y x a).getD 0 else if a = 0 then 0 else a - H.offset y x)
    else a
  | _, _ => a

theorem inherits_iff (H : Hierarchy) (x y : ℕ) : inheritsFrom H (.cls x) (.cls y) = true ↔ H.inherits x y = true ∧ x ≠ y := by
  simp [inheritsFrom]

theorem inherits_not_cls (H : Hierarchy) (t1 t2 : Ty) (h : (∀ n, t1 ≠ .cls n) ∨ ∀ n, t2 ≠ .cls n) :
    inheritsFrom H t1 t2 = false := by
  rcases h with h | h
  · cases t1 <;> first | exact absurd rfl (h _) | rfl
  · cases t2 <;> first | exact absurd rfl (h _) | (cases t1 <;> rfl)

theorem adjust_not_cls (H : Hierarchy) (t1 t2 : Ty) (h : (∀ n, t1 ≠ .cls n) ∨ ∀ n, t2 ≠ .cls n) : adjust H t1 t2 = id := by
  funext a
  rcases h with h | h
  · cases t1 <;> first | exact absurd rfl (h _) | rfl
  · cases t2 <;> first | exact absurd rfl (h _) | (cases t1 <;> rfl)

theorem cls_ne {x y : ℕ} (H : Hierarchy) (h : H.inherits x y = true) : x ≠ y := by
  rintro rfl
  have := H.antisymm x x h
  rw [h] at this; cases this

/-- Pointers to objects. -/
theorem plan_objects (H : Hierarchy) (c1 c2 : CV) (t1 t2 : Ty) (h1 : isFunction t1 = false) (h2 : isFunction t2 = false) :
    Good H (adjust H t1 t2) (pointerCast H (.pointer c1 t1) (.pointer c2 t2)) := by
  unfold pointerCast
  by_cases e : t1 = t2
  · subst e
    have : adjust H t1 t1 = id := by
      funext a; cases t1 <;> simp [adjust]
    rw [this]; exact plan_cv H _ _ _ _ h1
  by_cases hv : t1 = .void ∨ t2 = .void
  · rw [adjust_not_cls H]
    · exact plan_void H 2 _ _ _ _ h1 h2 hv
    · rcases hv with rfl | rfl
      · exact Or.inl (by simp)
      · exact Or.inr (by simp)
  unfold plan
  dsimp only
  rw [if_neg (fun h => e h.2), if_neg e, if_neg (by simp [h1, h2])]
  by_cases hi : inheritsFrom H t1 t2 = true
  · rw [if_pos (Or.inr (Or.inr hi))]
    cases t1 <;> cases t2 <;> try (simp [inheritsFrom] at hi; done)
    rename_i x y
    have hxy := (inherits_iff H x y).mp hi
    refine good_after (f := adjust H (.cls x) (.cls y)) (g := id) ?_ (fun a => ?_) (plan_cv H _ _ _ _ h2)
    · exact ⟨cv_le_refl _, Or.inr (Or.inr (Or.inr (Or.inl hi)))⟩
    simp only [step, adjust, if_pos hxy]
    split_ifs <;> rfl
  · rw [if_neg (by tauto)]
    by_cases hd : inheritsFrom H t2 t1 = true
    · rw [if_pos hd]
      cases t1 <;> cases t2 <;> try (simp [inheritsFrom] at hd; done)
      rename_i x y
      have hyx := (inherits_iff H y x).mp hd
      have hnxy : ¬ (H.inherits x y = true ∧ x ≠ y) := fun h => hi ((inherits_iff H x y).mpr h)
      by_cases hp : H.polymorphic x = true
      · rw [if_pos (show isPolymorphic H (.cls x) = true from hp)]
        refine good_after (f := adjust H (.cls x) (.cls y)) (g := id) ?_ (fun a => ?_) (plan_cv H _ _ _ _ h2)
        · exact ⟨cv_le_refl _, hp, hd⟩
        simp only [step, adjust, if_pos hyx, if_neg hnxy, if_pos hp]
      · rw [if_neg (show ¬ isPolymorphic H (.cls x) = true from hp)]
        refine good_after (f := adjust H (.cls x) (.cls y)) (g := id) ?_ (fun a => ?_) (plan_cv H _ _ _ _ h2)
        · exact ⟨cv_le_refl _, Or.inr (Or.inr (Or.inr (Or.inr (Or.inl hd))))⟩
        simp only [step, adjust, if_pos hyx, if_neg hnxy, if_neg hp]
        split_ifs <;> rfl
    · rw [if_neg hd]
      have hadj : adjust H t1 t2 = id := by
        funext a
        cases t1 <;> cases t2 <;> try rfl
        rename_i x y
        rw [inherits_iff] at hi hd
        simp only [adjust, if_neg hi, if_neg hd, id]
      rw [hadj]
      by_cases hp1 : isPointer t1 = true
      · rw [if_pos hp1]
        refine good_after (f := id) (g := id) (by exact ⟨cv_le_refl _, Or.inr (Or.inl ⟨rfl, h1⟩)⟩)
          (fun a => step_plain H _ _ _ _ _ (Or.inr (Or.inl (by simp))) _) ?_
        exact plan_void H 1 _ _ _ _ rfl h2 (Or.inl rfl)
      · rw [if_neg hp1]
        by_cases hp2 : isPointer t2 = true
        · rw [if_pos hp2]
          refine good_andThen (f := id) (g := id) (by exact ⟨cv_le_refl _, Or.inr (Or.inr (Or.inl ⟨rfl, h2⟩))⟩)
            (fun a => step_plain H _ _ _ _ _ (Or.inl (by simp)) _) ?_
          exact plan_void H 1 _ _ _ _ h1 rfl (Or.inr rfl)
        · rw [if_neg hp2]
          exact good_after (f := id) (g := id) (by exact cv_le_refl _) (fun a => step_plain H _ _ _ _ _ (Or.inr (Or.inr rfl)) _)
            (plan_cv H _ _ _ _ h2)

/-- Pointers to functions. -/
theorem plan_functions (H : Hierarchy) (c1 c2 : CV) (t1 t2 : Ty) (hf : isFunction t1 = true ∨ isFunction t2 = true)
    (w1 : WellFormed (.pointer c1 t1)) (w2 : WellFormed (.pointer c2 t2)) :
    (Promised (.pointer c1 t1) (.pointer c2 t2) → Good H id (pointerCast H (.pointer c1 t1) (.pointer c2 t2))) ∧
    (¬ Promised (.pointer c1 t1) (.pointer c2 t2) → pointerCast H (.pointer c1 t1) (.pointer c2 t2) = .rejected) := by
  unfold pointerCast
  by_cases e : t1 = t2
  · subst e
    cases t1 <;> simp [isFunction] at hf
    rename_i s n
    have e1 : c1 = CV.none := w1
    have e2 : c2 = CV.none := w2
    subst e1 e2
    constructor
    · intro _; unfold plan; dsimp only; rw [if_pos ⟨rfl, rfl⟩]; exact good_nil H
    · intro h; exact absurd rfl h
  unfold plan
  dsimp only
  rw [if_neg (fun h => e h.2), if_neg e, if_pos hf]
  cases t1 with
  | func s n =>
    have e1 : c1 = CV.none := w1
    subst e1
    cases t2 with
    | func s' n' =>
      have e2 : c2 = CV.none := w2
      subst e2
      dsimp only
      constructor
      · intro h
        have h : s = s' := h
        subst h
        rw [if_neg (by simp)]
        split_ifs with hn
        · exact good_one (by exact cv_le_refl _) (fun a => step_plain H _ _ _ _ _ (Or.inl (by simp)) _)
        · refine good_one ?_ (fun a => step_plain H _ _ _ _ _ (Or.inl (by simp)) _)
          refine ⟨cv_le_refl _, Or.inr (Or.inr (Or.inr (Or.inr (Or.inr ⟨s, ?_, ?_⟩))))⟩
          · cases n <;> simp_all
          · cases n <;> cases n' <;> simp_all
      · intro h
        rw [if_pos (show s ≠ s' from h)]
    | void =>
      constructor
      · intro _
        simp only [ne_eq, not_true_eq_false, if_false]
        have e' : (Plan.casts [⟨.reinterpret, .pointer CV.none (.func s n), .pointer CV.none .void⟩,
            ⟨.static, .pointer CV.none .void, .pointer c2 .void⟩]) =
            Plan.after ⟨.reinterpret, .pointer CV.none (.func s n), .pointer CV.none .void⟩
              (.casts [⟨.static, .pointer CV.none .void, .pointer c2 .void⟩]) := rfl
        rw [e']
        refine good_after (f := id) (g := id) (by exact cv_le_refl _) (fun a => step_plain H _ _ _ _ _ (Or.inl (by simp)) _) ?_
        exact good_one (by exact ⟨cv_none_le _, Or.inl rfl⟩) (fun a => step_plain H _ _ _ _ _ (Or.inl (by simp)) _)
      · intro h; exact absurd rfl h
    | _ => exact ⟨fun h => by simp [Promised] at h, fun _ => by simp⟩
  | void =>
    cases t2 with
    | func s n =>
      constructor
      · intro _
        simp only [ne_eq, not_true_eq_false, if_false]
        have e2 : c2 = CV.none := w2
        subst e2
        exact good_andThen (f := id) (g := id) (by exact cv_le_refl _) (fun a => step_plain H _ _ _ _ _ (Or.inl (by simp)) _)
          (plan_cv H 2 _ _ _ rfl)
      · intro h; exact absurd rfl h
    | _ => simp [isFunction] at hf
  | _ =>
    cases t2 with
    | func s n => exact ⟨fun h => by simp [Promised] at h, fun _ => by simp⟩
    | _ => simp [isFunction] at hf

/-! ## integers -/

theorem wrap_has (t : IntTy) (z : ℤ) : t.Has (wrapInt t z) := by
  unfold IntTy.Has wrapInt
  obtain ⟨s, w, _, _⟩ := t
  cases s <;> cases w <;> simp only [if_true, Bool.false_eq_true, if_false] <;>
    constructor <;> norm_num <;> omega

theorem wrap_mod (t : IntTy) (z : ℤ) : wrapInt t z ≡ z [ZMOD 2 ^ 64] := by
  unfold wrapInt Int.ModEq
  obtain ⟨s, w, _, _⟩ := t
  cases s <;> cases w <;> simp only [if_true, Bool.false_eq_true, if_false] <;> norm_num <;> omega

theorem ofInt_denotes (z : ℤ) : Denotes z (BitVec.ofInt 64 z) := by
  unfold Denotes Int.ModEq
  rw [BitVec.toNat_ofInt]
  have : (0 : ℤ) ≤ z % (2 ^ 64 : ℕ) := Int.emod_nonneg _ (by norm_num)
  rw [Int.toNat_of_nonneg this]
  norm_num

theorem denotes_inj {z z' : ℤ} {a b : Addr} (h : z ≡ z' [ZMOD 2 ^ 64]) (ha : Denotes z a) (hb : Denotes z' b) : a = b := by
  unfold Denotes at ha hb
  have : ((a.toNat : ℤ)) ≡ b.toNat [ZMOD 2 ^ 64] := (ha.symm.trans h).trans hb
  unfold Int.ModEq at this
  have h1 := a.isLt
  have h2 := b.isLt
  apply BitVec.eq_of_toNat_eq
  have : (a.toNat : ℤ) = b.toNat := by
    rw [Int.emod_eq_of_lt (by omega) (by exact_mod_cast h1), Int.emod_eq_of_lt (by omega) (by exact_mod_cast h2)] at this
    exact this
  exact_mod_cast this

/-- Pointer to integer. -/
theorem plan_toInt (H : Hierarchy) (c : CV) (t : Ty) (i : IntTy) :
    ∃ l, pointerCast H (.pointer c t) (.int i) = .casts l ∧ (∀ s ∈ l, legal H s) ∧
      ∀ a, ∃ z, run H l (.addr a) = .num z ∧ i.Has z ∧ Denotes z a := by
  unfold pointerCast plan toInt
  dsimp only
  split_ifs with h
  · refine ⟨_, rfl, ?_, fun a => ⟨_, rfl, wrap_has _ _, ?_⟩⟩
    · intro s hs
      rcases List.mem_cons.mp hs with rfl | hs
      · exact ⟨rfl, rfl⟩
      · rw [List.mem_singleton.mp hs]; trivial
    · exact (wrap_mod _ _).trans (wrap_mod _ _)
  · refine ⟨_, rfl, ?_, fun a => ⟨_, rfl, wrap_has _ _, wrap_mod _ _⟩⟩
    intro s hs
    rw [List.mem_singleton.mp hs]
    exact ⟨by simpa using fun h' => h (Or.inl h'), by simpa using fun h' => h (Or.inr h')⟩

theorem plan_ofInt' (H : Hierarchy) (n : ℕ) (c : CV) (t : Ty) (i : IntTy) (he : i.isEnum = false) :
    ∃ l, plan H (n + 1) (.int i) (.pointer c t) = .casts l ∧ (∀ s ∈ l, legal H s) ∧
      ∀ z, ∃ a, run H l (.num z) = .addr a ∧ Denotes z a := by
  unfold plan
  dsimp only
  simp only [he, Bool.false_eq_true, if_false]
  split_ifs with h
  · refine ⟨_, rfl, ?_, fun z => ⟨_, rfl, ofInt_denotes z⟩⟩
    intro s hs
    rw [List.mem_singleton.mp hs]; trivial
  · refine ⟨_, rfl, ?_, fun z => ⟨_, rfl, ?_⟩⟩
    · intro s hs
      rcases List.mem_cons.mp hs with rfl | hs
      · trivial
      · rw [List.mem_singleton.mp hs]; trivial
    · exact (wrap_mod _ _).symm.trans (ofInt_denotes _)

/-- Integer to pointer. -/
theorem plan_ofInt (H : Hierarchy) (c : CV) (t : Ty) (i : IntTy) :
    ∃ l, pointerCast H (.int i) (.pointer c t) = .casts l ∧ (∀ s ∈ l, legal H s) ∧
      ∀ z, ∃ a, run H l (.num z) = .addr a ∧ Denotes z a := by
  by_cases he : i.isEnum = true
  · obtain ⟨l, hl, hs, hr⟩ := plan_ofInt' H 2 c t { i with isEnum := false } rfl
    refine ⟨⟨.static, .int i, .int { i with isEnum := false }⟩ :: l, ?_, ?_, fun z => ?_⟩
    · unfold pointerCast plan
      simp only [he, if_true]
      rw [hl]; rfl
    · intro s h
      rcases List.mem_cons.mp h with rfl | h
      · trivial
      · exact hs s h
    · obtain ⟨a, ha, hd⟩ := hr (wrapInt { i with isEnum := false } z)
      exact ⟨a, ha, (wrap_mod _ _).symm.trans hd⟩
  · exact plan_ofInt' H 3 c t i (by simpa using he)

end Verif.Proofs.PointerCast
