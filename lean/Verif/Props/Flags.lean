import Verif.Proofs.Flags

/-! # C142: operators of flag enumerations -/

namespace Verif.Props.Flags

open Verif.Spec.CInt Verif.Spec.Flags Verif.Model.Flags Verif.Proofs.Flags

/-- For every enumeration and every two of its values, `|`, `&` and `^` are defined and give the value whose flags are those set in one
    of the operands, in both, and in exactly one. -/
theorem C142_combine (e : EnumTy) (he : Valid e) (a b : ℤ) (ha : e.values.Has a) (hb : e.values.Has b) :
    (∃ r, binary e .or a b = some r ∧ e.values.Has r ∧ ∀ i, Bit r i ↔ Bit a i ∨ Bit b i) ∧
    (∃ r, binary e .and a b = some r ∧ e.values.Has r ∧ ∀ i, Bit r i ↔ Bit a i ∧ Bit b i) ∧
    (∃ r, binary e .xor a b = some r ∧ e.values.Has r ∧ ∀ i, Bit r i ↔ (Bit a i ∧ ¬Bit b i ∨ Bit b i ∧ ¬Bit a i)) := by
  refine ⟨⟨_, (binary_eq he .or ha hb).1, (binary_eq he .or ha hb).2, fun i => bit_pure .or a b i⟩,
    ⟨_, (binary_eq he .and ha hb).1, (binary_eq he .and ha hb).2, fun i => bit_pure .and a b i⟩,
    ⟨_, (binary_eq he .xor ha hb).1, (binary_eq he .xor ha hb).2, fun i => ?_⟩⟩
  have := bit_pure .xor a b i
  simp only [onBit] at this
  rw [this]
  by_cases Bit a i <;> by_cases Bit b i <;> simp_all

/-- `x |= y` and the others give the variable the value of `x | y`, leave all others as they are, and refer to the variable. -/
theorem C142_assign (e : EnumTy) (he : Valid e) (o : Op) (vars : ℕ → ℤ) (x : ℕ) (b : ℤ) (ha : e.values.Has (vars x)) (hb : e.values.Has b) :
    ∃ vars', assign e o vars x b = some (vars', x) ∧ binary e o (vars x) b = some (vars' x) ∧ ∀ y ≠ x, vars' y = vars y := by
  obtain ⟨h, -⟩ := binary_eq he o ha hb
  refine ⟨Function.update vars x (pure o (vars x) b), ?_, ?_, fun y hy => Function.update_of_ne hy ..⟩
  · rw [assign, h]; rfl
  · rw [Function.update_self]; exact h

/-- A value is determined by its flags, and `!x` says whether none is set. -/
theorem C142_flags (e : EnumTy) (he : Valid e) (a b : ℤ) (ha : e.values.Has a) (hb : e.values.Has b) :
    ((∀ i < e.values.bits, (Bit a i ↔ Bit b i)) → a = b) ∧ (isNone e a = true ↔ ∀ i < e.values.bits, ¬Bit a i) := by
  have hv := valid_bits he
  generalize e.values = t at *
  have key : ∀ b : ℤ, t.Has b → (∀ i < t.bits, (Bit a i ↔ Bit b i)) → a = b := by
    intro b hb h
    have h2 := Proofs.CInt.two_pow_pred hv
    have hs : a < 0 ↔ b < 0 := by
      rcases hsg : t.signed with _ | _
      · simp only [Ty.Has, Ty.lo, hsg, Bool.false_eq_true, if_false] at ha hb
        omega
      · simp only [Ty.Has, Ty.lo, Ty.hi, hsg, if_true] at ha hb
        rw [← bit_large a (t.bits - 1) (t.bits - 1) (by omega) (by omega) (le_refl _),
          ← bit_large b (t.bits - 1) (t.bits - 1) (by omega) (by omega) (le_refl _)]
        exact h _ (by omega)
    have hw : ∀ c, t.Has c → -2 ^ t.bits ≤ c ∧ c < 2 ^ t.bits := by
      intro c hc
      have hp := Proofs.CInt.two_pow_pos t.bits
      have hq := Proofs.CInt.two_pow_pos (t.bits - 1)
      unfold Ty.Has Ty.lo Ty.hi at hc
      split at hc <;> omega
    exact eq_of_bits_aux t.bits a b (hw a ha).1 (hw a ha).2 (hw b hb).1 (hw b hb).2 hs h
  refine ⟨key b hb, ?_⟩
  have h0 : ∀ i, ¬Bit 0 i := by intro i; simp [Bit]
  rw [isNone, decide_eq_true_eq]
  constructor
  · rintro rfl i -; exact h0 i
  · intro h
    refine key 0 ?_ (fun i hi => ⟨fun hb => absurd hb (h i hi), fun hb => absurd hb (h0 i)⟩)
    have hp := Proofs.CInt.two_pow_pos t.bits
    have hq := Proofs.CInt.two_pow_pos (t.bits - 1)
    unfold Ty.Has Ty.lo Ty.hi
    split <;> omega

/-- With a fixed underlying integer type `~x` has exactly the flags `x` does not have. -/
theorem C142_complement_partial (t : Ty) (ht : 0 < t.bits) (a : ℤ) :
    ∃ r, complement (.fixed t) a = some r ∧ t.Has r ∧ ∀ i < t.bits, (Bit r i ↔ ¬Bit a i) := complement_fixed ht a

/-- So `x & ~y` removes the flags of `y` from `x`, and `(x & y) == y` says whether `x` has all flags of `y`. -/
theorem C142_idioms_partial (t : Ty) (ht : 0 < t.bits) (a b : ℤ) (ha : t.Has a) (hb : t.Has b) :
    (∃ r, (do binary (.fixed t) .and a (← complement (.fixed t) b)) = some r ∧ t.Has r ∧ ∀ i < t.bits, (Bit r i ↔ Bit a i ∧ ¬Bit b i)) ∧
    (∃ r, binary (.fixed t) .and a b = some r ∧ (r = b ↔ ∀ i < t.bits, Bit b i → Bit a i)) := by
  obtain ⟨c, hc, hct, hcb⟩ := complement_fixed ht b
  constructor
  · obtain ⟨-, ⟨r, hr, hrt, hrb⟩, -⟩ := C142_combine (.fixed t) ht a c ha hct
    refine ⟨r, ?_, hrt, fun i hi => ?_⟩
    · rw [hc]; exact hr
    · rw [hrb, hcb i hi]
  · obtain ⟨-, ⟨r, hr, hrt, hrb⟩, -⟩ := C142_combine (.fixed t) ht a b ha hb
    refine ⟨r, hr, ?_, ?_⟩
    · rintro rfl i - h
      exact ((hrb i).1 h).1
    · intro h
      refine (C142_flags (.fixed t) ht r b hrt hb).1 fun i hi => ?_
      rw [hrb]
      exact ⟨fun h => h.2, fun hb => ⟨h i hi hb, hb⟩⟩

/-- If the underlying type is `bool`, `~` always gives true: it does not remove the only flag there is. -/
theorem C142_bool_violated : Valid .boolean ∧ complement .boolean 1 = some 1 ∧ Bit 1 0 := by
  refine ⟨trivial, by decide +kernel, by unfold Bit; decide⟩

/-- An enumeration without a fixed type: `~` is right if it has negative values, or all values of its promoted underlying type. -/
theorem C142_unfixed_partial (t h : Ty) (he : Valid (.unfixed t h)) (hs : h.signed = true ∨ Model.CInt.promote t = h) (a : ℤ) (ha : h.Has a) :
    ∃ r, complement (.unfixed t h) a = some r ∧ h.Has r ∧ ∀ i < h.bits, (Bit r i ↔ ¬Bit a i) := by
  cases hsg : h.signed
  · refine (complement_unsigned he hsg ha).1 (hs.resolve_left ?_)
    rw [hsg]; exact Bool.false_ne_true
  · obtain ⟨h1, h2⟩ := complement_signed he hsg ha
    exact ⟨_, h1, h2, fun i _ => bit_lnot a i⟩

/-- In all other cases `~` is undefined, whatever it is applied to. -/
theorem C142_unfixed_violated (t h : Ty) (he : Valid (.unfixed t h)) (hs : h.signed = false) (hp : Model.CInt.promote t ≠ h) (a : ℤ) (ha : h.Has a) :
    complement (.unfixed t h) a = none := (complement_unsigned he hs ha).2 hp

/-- `enum class my_flags : unsigned { alpha = 1, beta = 2, gamma = 4 }`, and the old `enum { alpha = 1, beta = 2 }`. -/
example : Valid (.fixed ⟨32, false⟩) ∧ (EnumTy.fixed ⟨32, false⟩).values.Has 5 ∧ binary (.fixed ⟨32, false⟩) .or 5 2 = some 7 ∧
    complement (.fixed ⟨8, true⟩) 5 = some (-6) ∧ complement (.fixed ⟨32, false⟩) 5 = some 4294967290 := by
  refine ⟨(by decide : 0 < 32), by decide, by decide +kernel, by decide +kernel, by decide +kernel⟩

example : Valid (.unfixed ⟨32, false⟩ ⟨2, false⟩) ∧ Model.CInt.promote ⟨32, false⟩ ≠ ⟨2, false⟩ ∧ (⟨2, false⟩ : Ty).Has 3 ∧
    Valid (.unfixed ⟨32, true⟩ ⟨2, true⟩) ∧ (⟨2, true⟩ : Ty).Has (-2) ∧ complement (.unfixed ⟨32, true⟩ ⟨2, true⟩) (-2) = some 1 := by
  refine ⟨⟨by decide, by decide, fun v h => ?_⟩, by decide, by decide, ⟨by decide, by decide, fun v h => ?_⟩, by decide, by decide +kernel⟩ <;>
    simp [Ty.Has, Ty.lo, Ty.hi] at * <;> omega

end Verif.Props.Flags
