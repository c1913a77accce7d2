import Verif.Model.FunctionView
import Mathlib.Tactic

/-!
# Lemmas about function views
-/

namespace Verif.Proofs.FunctionView

open Verif.Model.FunctionView

variable {σ W A R : Type}

/-- The object a step creates, changes or destroys, other than by calling it. -/
def target : Op σ A → Option ℕ
  | .functor a _ _ | .null a | .construct a _ | .copyConst a _ | .copy a _ | .assign a _ | .rebind a _ | .destroy a => some a
  | .call _ _ => none

/-- Two memories differ at most in the states of function objects. -/
def Similar (m m' : Mem σ) : Prop :=
  ∀ a, (∀ v, m a = some (.view v) → m' a = some (.view v)) ∧
    (∀ cls s, m a = some (.functor cls s) → ∃ s', m' a = some (.functor cls s'))

theorem similar_refl (m : Mem σ) : Similar m m := fun _ => ⟨fun _ h => h, fun _ s h => ⟨s, h⟩⟩

theorem call_similar (code : Code σ W A R) (n : ℕ) (v : View) (m : Mem σ) (w : W) (x : A) (m' : Mem σ) (w' : W) (r : R)
    (h : call code n v m w x = .ok (m', w', r)) : Similar m m' := by
  induction n generalizing v with
  | zero => cases h
  | succ n ih =>
    rw [call] at h
    split at h
    · injection h with h
      cases h
      exact similar_refl m
    · injection h with h
      cases h
      exact similar_refl m
    · rename_i c a h1 h2
      split at h
      · rename_i k s hm
        split_ifs at h with hk
        injection h with h
        cases h
        intro b
        by_cases hb : b = a
        · subst hb
          refine ⟨fun v hv => ?_, fun cls s' hs => ?_⟩
          · rw [hm] at hv; cases hv
          · rw [hm] at hs
            cases hs
            exact ⟨_, Function.update_self ..⟩
        · refine ⟨fun v hv => ?_, fun cls s' hs => ?_⟩
          · rw [Function.update_of_ne hb]; exact hv
          · exact ⟨s', by rw [Function.update_of_ne hb]; exact hs⟩
      · cases h
    · split at h
      · exact ih _ h
      · cases h
    · cases h

theorem step_keeps (code : Code σ W A R) (n : ℕ) (m : Mem σ) (w : W) (op : Op σ A) (m' : Mem σ) (w' : W)
    (h : step code n m w op = some (m', w')) (a : ℕ) (ha : target op ≠ some a) :
    (∀ v, m a = some (.view v) → m' a = some (.view v)) ∧
    (∀ cls s, m a = some (.functor cls s) → ∃ s', m' a = some (.functor cls s')) := by
  have upd : ∀ (b : ℕ) (o : Option (Obj σ)), b ≠ a → (m', w') = (Function.update m b o, w) →
      (∀ v, m a = some (.view v) → m' a = some (.view v)) ∧
      (∀ cls s, m a = some (.functor cls s) → ∃ s', m' a = some (.functor cls s')) := by
    intro b o hb e
    cases e
    rw [Function.update_of_ne hb.symm]
    exact ⟨fun v hv => hv, fun cls s hs => ⟨s, hs⟩⟩
  have ne : ∀ b, target op = some b → b ≠ a := fun b hb e => ha (e ▸ hb)
  cases op with
  | call b x =>
    simp only [step] at h
    split at h
    · split at h
      · rename_i hc
        injection h with h
        cases h
        exact call_similar code n _ m w x _ _ _ hc a
      · cases h
    · cases h
  | functor b cls s =>
    simp only [step] at h
    split at h
    · injection h with h; exact upd b _ (ne b rfl) h.symm
    · cases h
  | null b =>
    simp only [step] at h
    split at h
    · injection h with h; exact upd b _ (ne b rfl) h.symm
    · cases h
  | construct b s =>
    simp only [step] at h
    split at h
    · injection h with h; exact upd b _ (ne b rfl) h.symm
    · cases h
  | copyConst b c =>
    simp only [step] at h
    split at h
    · injection h with h; exact upd b _ (ne b rfl) h.symm
    · cases h
  | copy b c =>
    simp only [step] at h
    split at h
    · injection h with h; exact upd b _ (ne b rfl) h.symm
    · cases h
  | assign b c =>
    simp only [step] at h
    split at h
    · injection h with h; exact upd b _ (ne b rfl) h.symm
    · cases h
  | rebind b s =>
    simp only [step] at h
    split at h
    · injection h with h; exact upd b _ (ne b rfl) h.symm
    · cases h
  | destroy b =>
    simp only [step] at h
    split at h
    · injection h with h; exact upd b _ (ne b rfl) h.symm
    · cases h

theorem run_keeps (code : Code σ W A R) (n : ℕ) (ops : List (Op σ A)) (m : Mem σ) (w : W) (m' : Mem σ) (w' : W)
    (h : run code n m w ops = some (m', w')) (a : ℕ) (ha : ∀ op ∈ ops, target op ≠ some a) :
    (∀ v, m a = some (.view v) → m' a = some (.view v)) ∧
    (∀ cls s, m a = some (.functor cls s) → ∃ s', m' a = some (.functor cls s')) := by
  induction ops generalizing m w with
  | nil =>
    cases h
    exact similar_refl m' a
  | cons op ops ih =>
    rw [run] at h
    cases hs : step code n m w op with
    | none => rw [hs] at h; cases h
    | some r =>
      rw [hs] at h
      obtain ⟨h1, h2⟩ := step_keeps code n m w op r.1 r.2 hs a (ha op List.mem_cons_self)
      obtain ⟨h3, h4⟩ := ih r.1 r.2 h (fun o ho => ha o (List.mem_cons_of_mem _ ho))
      refine ⟨fun v hv => h3 v (h1 v hv), fun cls s hm => ?_⟩
      obtain ⟨s', hs'⟩ := h2 cls s hm
      exact h4 cls s' hs'

end Verif.Proofs.FunctionView
