import Verif.Model.StringParam
import Verif.Proofs.Strings2
/-! Lemmas about the string_param model that do not concern encodings. -/
namespace Verif.Proofs.StringParam
open Verif.Spec Verif.Spec.StringParam Verif.Model.StringParam

theorem encode_nil (e : Enc) : encode e [] = [] := by cases e <;> rfl

theorem utf16_ne_nil (c : Nat) : utf16 c ≠ [] := by unfold utf16; split <;> simp

theorem encode_ne_nil (e : Enc) {t : Text} (h : t ≠ []) : encode e t ≠ [] := by
  cases t with
  | nil => exact absurd rfl h
  | cons c t =>
    cases e
    · exact utf8s_ne_nil (by simp)
    · simp [encode]
    · exact utf8s_ne_nil (by simp)
    · simp only [encode, utf16s, List.map_cons, List.flatten_cons]
      intro hh
      exact utf16_ne_nil c (List.append_eq_nil_iff.1 hh).1
    · simp [encode]

/-- a parameter stands for a text -/
def Holds (G : Text → Prop) (t : Text) (p : Param) : Prop :=
  (t = [] ∧ p = none) ∨ (t ≠ [] ∧ G t ∧ ∃ e o, p = some ⟨e, o, encode e t⟩)

theorem holds_init {G : Text → Prop} (e : Enc) (o : Bool) {t : Text} (h : t = [] ∨ G t) : Holds G t (init e o (encode e t)) := by
  by_cases ht : t = []
  · left; refine ⟨ht, ?_⟩; subst ht; simp [init, encode_nil]
  · right
    refine ⟨ht, h.resolve_left ht, e, o, ?_⟩
    simp [init, encode_ne_nil e ht]

theorem holds_empty {G : Text → Prop} {t : Text} {p : Param} (h : Holds G t p) : empty p = some t.isEmpty := by
  rcases h with ⟨rfl, rfl⟩ | ⟨ht, _, e, o, rfl⟩
  · rfl
  · simp [empty, visit, List.isEmpty_eq_false_iff.2 (encode_ne_nil e ht), List.isEmpty_eq_false_iff.2 ht]

theorem holds_moveAssign {G : Text → Prop} {t : Text} {l p : Param} (h : Holds G t p) (ht : t ≠ []) : moveAssign l p = some p := by
  rcases h with ⟨h', _⟩ | ⟨_, _, e, o, rfl⟩
  · exact absurd h' ht
  · unfold moveAssign
    split
    · rfl
    · simp [visit, init, encode_ne_nil e ht]

theorem run_snoc {a b c : List Text} {ops : List Op} {os : List Obs} {op : Op} {o : Obs} (h : Run a ops os b) (hs : Step b op o c) :
    Run a (ops ++ [op]) (os ++ [o]) c := by
  induction h with
  | nil => exact .cons hs (.nil _)
  | cons h _ ih => exact .cons h (ih hs)

theorem forall2_get {α β : Type} {R : α → β → Prop} {xs : List α} {ys : List β} (h : List.Forall₂ R xs ys) {i : Nat}
    {x : α} (hx : xs[i]? = some x) : ∃ y, ys[i]? = some y ∧ R x y := by
  induction h generalizing i with
  | nil => simp at hx
  | cons hr _ ih =>
    cases i with
    | zero =>
      simp only [List.getElem?_cons_zero, Option.some.injEq] at hx
      exact ⟨_, by simp, hx ▸ hr⟩
    | succ i => simpa using ih (by simpa using hx)

theorem forall2_set {α β : Type} {R : α → β → Prop} {xs : List α} {ys : List β} (h : List.Forall₂ R xs ys) (i : Nat)
    {x : α} {y : β} (hr : R x y) : List.Forall₂ R (xs.set i x) (ys.set i y) := by
  induction h generalizing i with
  | nil => exact .nil
  | cons hr' ht ih =>
    cases i with
    | zero => exact .cons hr ht
    | succ i => exact .cons hr' (ih i)

theorem forall2_snoc {α β : Type} {R : α → β → Prop} {xs : List α} {ys : List β} (h : List.Forall₂ R xs ys)
    {x : α} {y : β} (hr : R x y) : List.Forall₂ R (xs ++ [x]) (ys ++ [y]) := by
  induction h with
  | nil => exact .cons hr .nil
  | cons hr' _ ih => exact .cons hr' ih

theorem forall2_length {α β : Type} {R : α → β → Prop} {xs : List α} {ys : List β} (h : List.Forall₂ R xs ys) :
    xs.length = ys.length := by
  induction h with
  | nil => rfl
  | cons _ _ ih => simp [ih]

end Verif.Proofs.StringParam
