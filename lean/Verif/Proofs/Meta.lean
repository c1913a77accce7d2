import Verif.Model.Meta
import Mathlib.Data.Finset.Attr
import Mathlib.Tactic.Common
/-! # Lemmas about the metafunctions -/
namespace Verif.Proofs.Meta
open Verif.Spec.CppTypes Verif.Model.Meta

theorem mapCV_qualify (g : CV → CV) (q : CV) (p : Ty) : mapCV g (qualify q p) = qualify (g q) p := by
  induction p <;> simp_all [mapCV, qualify]

theorem qualify_qualify (q q' : CV) (p : Ty) : qualify q (qualify q' p) = qualify q p := by
  induction p <;> simp_all [qualify]

theorem qualify_plain (p : Ty) (h : Plain p) : qualify {} p = p := by
  induction p <;> simp_all [qualify, Plain]

theorem cvOf_qualify (q : CV) (p : Ty) (h : Qualifiable p) : cvOf (qualify q p) = q := by
  induction p <;> simp_all [cvOf, qualify, Qualifiable]

theorem plain_not_lref (p : Ty) (h : Plain p) : ∀ u, p ≠ .lref u := by rintro u rfl; exact h
theorem plain_not_rref (p : Ty) (h : Plain p) : ∀ u, p ≠ .rref u := by rintro u rfl; exact h

theorem remove_make (k : Ref) (q : CV) (p : Ty) (h : Plain p) : removeReference (make k q p) = qualify q p := by
  cases p <;> simp_all [Plain]
  case base b => cases k <;> cases b <;> rfl
  all_goals cases k <;> rfl

theorem rebase_make (k : Ref) (q q' : CV) (p : Ty) (h : Plain p) : rebaseRef (make k q p) (qualify q' p) = make k q' p := by
  cases p <;> simp_all [Plain]
  case base b => cases k <;> cases b <;> rfl
  all_goals cases k <;> rfl

theorem addL_qualify (q : CV) (p : Ty) (h : Plain p) : addLvalueReference (qualify q p) = make .l q p := by
  cases p with
  | base q0 b => cases b <;> rfl
  | lref u => exact h.elim
  | rref u => exact h.elim
  | _ => rfl

theorem addR_qualify (q : CV) (p : Ty) (h : Plain p) : addRvalueReference (qualify q p) = make .r q p := by
  cases p with
  | base q0 b => cases b <;> rfl
  | lref u => exact h.elim
  | rref u => exact h.elim
  | _ => rfl

theorem make_none (q : CV) (p : Ty) : make .none q p = qualify q p := by
  unfold make
  cases qualify q p with
  | base q0 b => cases b <;> rfl
  | _ => rfl

theorem make_l (q : CV) (p : Ty) (h : ∀ q, p ≠ .base q .void) : make .l q p = .lref (qualify q p) := by
  cases p with
  | base q0 b => cases b <;> first | rfl | exact (h _ rfl).elim
  | _ => rfl

theorem make_r (q : CV) (p : Ty) (h : ∀ q, p ≠ .base q .void) : make .r q p = .rref (qualify q p) := by
  cases p with
  | base q0 b => cases b <;> first | rfl | exact (h _ rfl).elim
  | _ => rfl

theorem copyRef_none (t : Ty) (q : CV) (p : Ty) (h : Plain p) : copyRef t (qualify q p) = removeReference t := by
  cases p with
  | lref u => exact h.elim
  | rref u => exact h.elim
  | _ => rfl

theorem refers_copy (k k' : Ref) (q q' : CV) (p p' : Ty) (h : Plain p) (h' : Plain p') (hr : Refers k' p') :
    copyRef (make k q p) (make k' q' p') = make k' q p := by
  cases k' with
  | none => rw [make_none, copyRef_none _ _ _ h', remove_make _ _ _ h, make_none]
  | l =>
    rw [make_l q' p' (hr.resolve_left (by simp)), ← addL_qualify _ _ h, ← remove_make k q p h]
    rfl
  | r =>
    rw [make_r q' p' (hr.resolve_left (by simp)), ← addR_qualify _ _ h, ← remove_make k q p h]
    rfl

theorem isReference_qualify (q : CV) (p : Ty) (h : Plain p) : isReference (qualify q p) = false := by
  cases p with
  | lref u => exact h.elim
  | rref u => exact h.elim
  | _ => rfl

theorem isReference_make (k : Ref) (q : CV) (p : Ty) (h : Plain p) (hr : Refers k p) : isReference (make k q p) = decide (k ≠ .none) := by
  cases k with
  | none => rw [make_none, isReference_qualify _ _ h]; rfl
  | l => rw [make_l _ _ (hr.resolve_left (by simp))]; rfl
  | r => rw [make_r _ _ (hr.resolve_left (by simp))]; rfl

theorem removeCvref_make (k : Ref) (q : CV) (p : Ty) (h : Plain p) : removeCvref (make k q p) = p := by
  unfold removeCvref stdRemoveConst stdRemoveVolatile
  rw [remove_make _ _ _ h, mapCV_qualify, mapCV_qualify]
  exact qualify_plain p h

end Verif.Proofs.Meta
