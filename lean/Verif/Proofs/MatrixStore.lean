import Verif.Model.MatrixStore
import Verif.Proofs.VectorEq
import Verif.Proofs.IntVector
import Verif.Props.VectorStore
import Verif.Props.VectorEq
import Verif.Props.IntVector
import Mathlib.Data.List.FinRange

/-! Lemmas about the storage of matrices. -/

namespace Verif.Proofs.MatrixStore

open Verif.Spec.CInt Verif.Spec.Parts Verif.Model.VectorStore Verif.Model.MatrixStore Verif.Proofs.VectorStore

variable {α β : Type}

/-- The component `i` of a vector. -/
def at_ {n : ℕ} (v : Store α n) (i : Fin n) : α := (parts v)[i.val]'(by rw [parts_length]; exact i.2)

theorem parts_at {n : ℕ} (v : Store α n) : parts v = List.ofFn (at_ v) := by
  apply List.ext_getElem
  · simp [parts_length]
  · intro i h1 h2; simp [at_]

theorem at_of {n : ℕ} (v : Store α n) (i : Fin n) {l : List α} (h : parts v = l) (hl : i.val < l.length) : at_ v i = l[i.val] := by
  subst h; rfl

theorem at_mem {n : ℕ} (v : Store α n) (i : Fin n) : at_ v i ∈ parts v := List.getElem_mem _

theorem mem_at {n : ℕ} (v : Store α n) (x : α) (h : x ∈ parts v) : ∃ i, x = at_ v i := by
  rw [parts_at] at h
  obtain ⟨i, rfl⟩ := (List.mem_ofFn' _ _).1 h
  exact ⟨i, rfl⟩

theorem zip_at {n : ℕ} (v : Store α n) (w : Store β n) (p : α × β) (h : p ∈ (parts v).zip (parts w)) :
    ∃ i, p.1 = at_ v i ∧ p.2 = at_ w i := by
  obtain ⟨i, hi, rfl⟩ := List.mem_iff_getElem.1 h
  have : i < n := by simpa [parts_length] using hi
  exact ⟨⟨i, this⟩, by simp [at_], by simp [at_]⟩

theorem at_ext {n : ℕ} {v w : Store α n} (h : ∀ i, at_ v i = at_ w i) : v = w := by
  apply parts_inj
  rw [parts_at, parts_at, funext h]

theorem broadcast_at (a : α) {n : ℕ} (hn : 0 < n) : ∃ v, Model.VectorStore.broadcast a n = some v ∧ ∀ i, at_ v i = a := by
  obtain ⟨v, h1, h2⟩ := Props.VectorStore.C137_broadcast a n hn
  exact ⟨v, h1, fun i => by rw [at_of v i h2 (by simp)]; simp⟩

theorem convert_at (zero : α) (cast : β → α) {n d : ℕ} (hn : 0 < n) (vec : Store β d) :
    ∃ v, Model.VectorStore.convert zero cast n vec = some v ∧ ∀ i : Fin n, at_ v i = if h : i.val < d then cast (at_ vec ⟨i, h⟩) else zero := by
  obtain ⟨v, h1, h2⟩ := Props.VectorStore.C137_convert zero cast n d hn vec
  refine ⟨v, h1, fun i => ?_⟩
  have hl : ((parts vec).take n).length = min n d := by simp [parts_length]
  have := i.2
  rw [at_of v i h2 (by rw [← h2, parts_length]; exact i.2)]
  split_ifs with h
  · simp only [padded]
    rw [List.getElem_append_left (by simp [parts_length]; omega)]
    simp [at_]
  · simp only [padded]
    rw [List.getElem_append_right (by simp [parts_length]; omega)]
    simp

theorem initColumns_some (zero : α) {R C : ℕ} (hR : 0 < R) (cols : List (Store α R)) (h : cols.length ≤ C) :
    ∃ m : Mat α R C, initColumns zero R C cols = some m ∧ (∀ c (hc : c.val < cols.length), m c = cols[c.val]) ∧
      ∀ c i, ¬c.val < cols.length → at_ (m c) i = zero := by
  obtain ⟨z, hz1, hz2⟩ := broadcast_at zero hR
  refine ⟨fun c => if h : c.val < cols.length then cols[c.val] else z, ?_, ?_, ?_⟩
  · unfold initColumns
    rw [if_pos h]
    apply gather_some
    intro i
    split_ifs <;> simp [hz1]
  · intro c hc; simp [hc]
  · intro c i hc; simp [hc, hz2]

theorem mapM_some' {γ : Type} {n : ℕ} (g : γ → Option α) (f : Fin n → α) {k : Fin n → γ} (h : ∀ i, g (k i) = some (f i)) :
    (List.ofFn k).mapM g = some (List.ofFn f) := by
  induction n with
  | zero => rfl
  | succ n ih =>
    rw [List.ofFn_succ, List.ofFn_succ, List.mapM_cons, h, ih _ fun i => h i.succ]
    rfl

theorem mapM_range {n : ℕ} (g : ℕ → Option α) (f : Fin n → α) (h : ∀ i : Fin n, g i = some (f i)) :
    (List.range n).mapM g = some (List.ofFn f) := by
  have e : List.range n = List.ofFn (fun i : Fin n => i.val) := by
    apply List.ext_getElem <;> simp
  rw [e, mapM_some' g f h]

theorem flatten_get {R : ℕ} (l : List (List α)) (h : ∀ x ∈ l, x.length = R) (c r : ℕ) (hr : r < R) :
    l.flatten[c * R + r]? = (l[c]?).bind fun x => x[r]? := by
  induction l generalizing c with
  | nil => simp
  | cons x l ih =>
    have hx := h x (by simp)
    rw [List.flatten_cons]
    cases c with
    | zero =>
      rw [List.getElem?_append_left (by rw [hx]; omega)]
      simp
    | succ c =>
      rw [List.getElem?_append_right (by rw [hx, Nat.succ_mul]; omega), hx, show (c + 1) * R + r - R = c * R + r by rw [Nat.succ_mul]; omega,
        ih (fun y hy => h y (by simp [hy]))]
      simp

theorem memory_get {R C : ℕ} (m : Mat α R C) (r : Fin R) (c : Fin C) : (memory m)[c.val * R + r.val]? = some (at_ (m c) r) := by
  unfold memory
  rw [List.flatMap_def, flatten_get (R := R) _ (by simp [parts_length]) _ _ r.2]
  simp [parts_at]

theorem memory_length {R C : ℕ} (m : Mat α R C) : (memory m).length = C * R := by
  simp [memory, List.length_flatMap, parts_length]

theorem loop_aux {R C : ℕ} (body : Fin C → Mat α R C → Option (Store α R)) (m r : Mat α R C)
    (h : ∀ (i : Fin C) (w : Mat α R C), (∀ j, w j = m j ∨ w j = r j) → w i = m i → body i w = some (r i)) :
    ∀ (l : List (Fin C)), l.Nodup → ∀ w : Mat α R C, (∀ j, w j = if j ∈ l then m j else r j) →
      l.foldlM (fun m i => do some (Function.update m i (← body i m))) w = some r := by
  intro l
  induction l with
  | nil => intro _ w hw; simp at hw; simp [funext hw]
  | cons i l ih =>
    intro hn w hw
    rw [List.nodup_cons] at hn
    have hb := h i w (fun j => by rw [hw j]; split_ifs <;> simp) (by rw [hw i]; simp)
    rw [List.foldlM_cons, hb]
    simp only [Option.bind_eq_bind, Option.bind_some]
    apply ih hn.2
    intro j
    by_cases hj : j = i
    · subst hj; simp [hn.1]
    · rw [Function.update_of_ne hj, hw j]; simp [hj]

/-- If the body computes from column `i` alone, as yet unchanged, what belongs there, the loop gives that. -/
theorem loop {R C : ℕ} (body : Fin C → Mat α R C → Option (Store α R)) (m r : Mat α R C)
    (h : ∀ (i : Fin C) (w : Mat α R C), w i = m i → body i w = some (r i)) : forColumns body m = some r :=
  loop_aux body m r (fun i w _ hw => h i w hw) _ (List.nodup_finRange C) m (by simp)

end Verif.Proofs.MatrixStore
