import Verif.Model.IntVector
import Verif.Proofs.VectorStore
import Verif.Proofs.CInt
import Mathlib.Tactic.Ring
import Mathlib.Tactic.Linarith
import Mathlib.Tactic.Positivity

/-! # Lemmas on the arithmetic of vectors of integers -/

namespace Verif.Proofs.IntVector

open Verif.Spec.CInt Verif.Spec.Parts Verif.Model.VectorStore Verif.Model.IntVector Verif.Proofs.VectorStore

theorem conv_reduced {t : Ty} (h : 0 < t.bits) (x : ℤ) : Reduced t x (Model.CInt.conv t x) := by
  have hp := Proofs.CInt.two_pow_pos t.bits
  have h2 := Proofs.CInt.two_pow_pred h
  have m0 := Int.emod_nonneg x (ne_of_gt hp)
  have m1 := Int.emod_lt_of_pos x hp
  have d : (2 ^ t.bits : ℤ) ∣ x - x % 2 ^ t.bits := Int.dvd_self_sub_emod
  unfold Model.CInt.conv
  dsimp only
  constructor
  · unfold Ty.Has Ty.lo Ty.hi
    cases hs : t.signed
    · simp; omega
    · simp only [true_and]
      simp only [if_true]
      split_ifs with hc <;> omega
  · split_ifs with hc
    · have := Int.dvd_add d (dvd_refl (2 ^ t.bits : ℤ))
      rwa [show x - x % 2 ^ t.bits + 2 ^ t.bits = x - (x % 2 ^ t.bits - 2 ^ t.bits) by ring] at this
    · exact d

theorem reduced_unique {t : Ty} (h : 0 < t.bits) {x a b : ℤ} (ha : Reduced t x a) (hb : Reduced t x b) : a = b := by
  have h2 := Proofs.CInt.two_pow_pred h
  obtain ⟨⟨a1, a2⟩, ad⟩ := ha
  obtain ⟨⟨b1, b2⟩, bd⟩ := hb
  have hd : (2 ^ t.bits : ℤ) ∣ a - b := by
    have := Int.dvd_sub bd ad
    rwa [show x - b - (x - a) = a - b by ring] at this
  have lt : |a - b| < 2 ^ t.bits := by
    unfold Ty.lo Ty.hi at *
    rw [abs_lt]
    cases hs : t.signed <;> simp only [hs, if_true, Bool.false_eq_true, if_false] at * <;> omega
  have := Int.eq_zero_of_abs_lt_dvd hd lt
  omega

theorem reduced_self {t : Ty} {x : ℤ} (h : t.Has x) : Reduced t x x := ⟨h, by simp⟩

theorem promote_bits {t : Ty} (h : 0 < t.bits) : 0 < (Model.CInt.promote t).bits := by
  unfold Model.CInt.promote; split_ifs <;> simp [h]

theorem promote_le (t : Ty) : t.bits ≤ (Model.CInt.promote t).bits := by
  unfold Model.CInt.promote; split_ifs with h <;> simp; omega

/-- Reducing to the wider type first makes no difference. -/
theorem reduced_trans {t p : Ty} (h : t.bits ≤ p.bits) {x y r : ℤ} (h1 : Reduced p x y) (h2 : Reduced t y r) : Reduced t x r := by
  refine ⟨h2.1, ?_⟩
  have := Int.dvd_add (dvd_trans (pow_dvd_pow 2 h) h1.2) h2.2
  rwa [show x - y + (y - r) = x - r by ring] at this

theorem promote_has {t : Ty} (h : 0 < t.bits) {x : ℤ} (hx : t.Has x) : (Model.CInt.promote t).Has x := by
  unfold Model.CInt.promote
  split_ifs with hb
  · have h1 : (2 : ℤ) ^ (t.bits - 1) ≤ 2 ^ 31 := Proofs.CInt.two_pow_mono (by omega)
    have h2 : (2 : ℤ) ^ t.bits ≤ 2 ^ 31 := Proofs.CInt.two_pow_mono (by omega)
    have h3 := Proofs.CInt.two_pow_pos (t.bits - 1)
    obtain ⟨a, b⟩ := hx
    have l32 : (⟨32, true⟩ : Ty).lo = -2 ^ 31 := rfl
    have h32 : (⟨32, true⟩ : Ty).hi = 2 ^ 31 - 1 := rfl
    unfold Ty.Has
    rw [l32, h32]
    unfold Ty.lo at a
    unfold Ty.hi at b
    cases hs : t.signed <;> simp only [hs, if_true, Bool.false_eq_true, if_false] at a b <;> omega
  · exact hx

theorem result_has {p : Ty} (h : 0 < p.bits) {x : ℤ} (hx : p.Has x) : result p x = some x := by
  unfold result
  split_ifs
  · rfl
  · rw [Proofs.CInt.conv_has h hx]

theorem result_reduced {p : Ty} (h : 0 < p.bits) {x : ℤ} (hx : p.signed = false ∨ p.Has x) : ∃ y, result p x = some y ∧ Reduced p x y := by
  rcases hx with hx | hx
  · exact ⟨_, by unfold result; rw [if_neg (by simp [hx])], conv_reduced h x⟩
  · exact ⟨x, result_has h hx, reduced_self hx⟩

/-- A component-wise function that is defined for a pair of vectors is defined for each pair of components. -/
theorem construct_defined {α β γ : Type} {n : ℕ} (f : α → β → Option γ) (v : Store α n) (w : Store β n) (r : Store γ n)
    (h : construct f v w = some r) : ∀ p ∈ (parts v).zip (parts w), ∃ c, f p.1 p.2 = some c := by
  have key : ∀ {δ : Type} {o : Option γ} {k : γ → Option δ} {d : δ}, (o >>= k) = some d → ∃ c, o = some c ∧ k c = some d := by
    intro δ o k d h
    cases o with
    | none => cases h
    | some c => exact ⟨c, rfl, h⟩
  cases v with
  | one x =>
    cases w
    obtain ⟨a, ha, _⟩ := key h
    simp only [parts, List.zip_cons_cons, List.zip_nil_right, List.mem_singleton]
    rintro p rfl
    exact ⟨a, ha⟩
  | two x y =>
    cases w
    obtain ⟨a, ha, h⟩ := key h
    obtain ⟨b, hb, h⟩ := key h
    simp only [parts, List.zip_cons_cons, List.zip_nil_right, List.mem_cons, List.not_mem_nil, or_false]
    rintro p (rfl | rfl)
    exacts [⟨a, ha⟩, ⟨b, hb⟩]
  | three x y z =>
    cases w
    obtain ⟨a, ha, h⟩ := key h
    obtain ⟨b, hb, h⟩ := key h
    obtain ⟨c, hc, h⟩ := key h
    simp only [parts, List.zip_cons_cons, List.zip_nil_right, List.mem_cons, List.not_mem_nil, or_false]
    rintro p (rfl | rfl | rfl)
    exacts [⟨a, ha⟩, ⟨b, hb⟩, ⟨c, hc⟩]
  | four x y z u =>
    cases w
    obtain ⟨a, ha, h⟩ := key h
    obtain ⟨b, hb, h⟩ := key h
    obtain ⟨c, hc, h⟩ := key h
    obtain ⟨d, hd, h⟩ := key h
    simp only [parts, List.zip_cons_cons, List.zip_nil_right, List.mem_cons, List.not_mem_nil, or_false]
    rintro p (rfl | rfl | rfl | rfl)
    exacts [⟨a, ha⟩, ⟨b, hb⟩, ⟨c, hc⟩, ⟨d, hd⟩]
  | many v =>
    cases w with
    | many w =>
      have : ∀ i, ∃ c, f (v i) (w i) = some c := by
        simp only [construct, gather] at h
        by_cases hh : ∀ i, (f (v i) (w i)).isSome
        · exact fun i => Option.isSome_iff_exists.1 (hh i)
        · rw [dif_neg hh] at h; cases h
      intro p hp
      obtain ⟨i, hi, rfl⟩ := List.mem_iff_getElem.1 hp
      simp only [parts, List.getElem_zip, List.getElem_ofFn]
      exact this _

/-- Compound assignment gives what the operator gives. -/
theorem assign_eq {α : Type} {n : ℕ} (f : α → α → Option α) (v w r : Store α n) (rhs : Rhs α n)
    (hr : rhs = .other w ∨ (rhs = .itself ∧ w = v)) (h : construct f v w = some r) : assign f v rhs = some r := by
  have hd := construct_defined f v w r h
  obtain ⟨g, hg⟩ : ∃ g : α → α → α, ∀ p ∈ (parts v).zip (parts w), f p.1 p.2 = some (g p.1 p.2) := by
    refine ⟨fun a b => (f a b).getD a, fun p hp => ?_⟩
    obtain ⟨c, hc⟩ := hd p hp
    dsimp only
    rw [hc]; rfl
  obtain ⟨r1, h1, h1'⟩ := construct_parts f g v w hg
  obtain ⟨r2, h2, h2'⟩ := assign_parts f g v rhs w hr hg
  rw [h2]
  rw [h1] at h
  injection h with h
  rw [← h, parts_inj (h2'.trans h1'.symm)]

theorem zip_broadcast {α β : Type} (l : List α) (k : β) (n : ℕ) (h : l.length = n) : l.zip (List.replicate n k) = l.map fun a => (a, k) := by
  subst h
  induction l with
  | nil => rfl
  | cons a l ih => simp [List.replicate_succ, ih]

/-- An accumulation in which no step is undefined, with the exact value `op` only up to reduction. -/
theorem fold_reduced (p : Ty) (o : Op) (op : ℤ → ℤ → ℤ) (hop : ∀ a b, o.eval p a b = result p (op a b)) (hp : 0 < p.bits)
    (hcong : ∀ a a' b, (2 ^ p.bits : ℤ) ∣ a - a' → (2 ^ p.bits : ℤ) ∣ op a b - op a' b) (l : List ℤ) :
    ∀ x y : ℤ, Reduced p x y → (p.signed = false ∨ ∀ k ≤ l.length, p.Has ((l.take k).foldl op x)) →
      ∃ r, l.foldlM (fun a b => o.eval p a b) y = some r ∧ Reduced p (l.foldl op x) r := by
  induction l with
  | nil => intro x y h _; exact ⟨y, rfl, h⟩
  | cons b l ih =>
    intro x y h hs
    have h1 : p.signed = false ∨ p.Has (op y b) := by
      rcases hs with hs | hs
      · exact Or.inl hs
      · right
        have hx : p.Has x := by simpa using hs 0 (by simp)
        have : y = x := reduced_unique hp h (reduced_self hx)
        subst this
        simpa using hs 1 (by simp)
    obtain ⟨z, hz1, hz2⟩ := result_reduced hp h1
    have hz3 : Reduced p (op x b) z := by
      refine ⟨hz2.1, ?_⟩
      have := Int.dvd_add (hcong x y b h.2) hz2.2
      rwa [show op x b - op y b + (op y b - z) = op x b - z by ring] at this
    obtain ⟨r, hr1, hr2⟩ := ih (op x b) z hz3 (by
      rcases hs with hs | hs
      · exact Or.inl hs
      · right
        intro k hk
        simpa using hs (k + 1) (by simpa using hk))
    refine ⟨r, ?_, hr2⟩
    rw [List.foldlM_cons, hop, hz1]
    exact hr1

end Verif.Proofs.IntVector
