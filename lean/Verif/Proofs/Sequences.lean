import Verif.Model.Sequences
import Verif.Spec.Sequences
import Mathlib.Tactic

/-!
# Lemmas about `for_sequence` and `for_product`
-/

namespace Verif.Proofs.Sequences

open Verif.Model.Sequences Verif.Spec.Sequences

variable {W ι κ : Type}

theorem comma_calls (f : ι → W → W × Bool) (is : List ι) (w : W) (r : W × Bool) :
    Calls f is w r ↔ comma f is w = r := by
  induction is generalizing w with
  | nil =>
    constructor
    · intro h; cases h; rfl
    · rintro rfl; exact .done w
  | cons i is ih =>
    rw [comma]
    constructor
    · intro h
      cases h with
      | throws _ _ _ w' hf => simp [hf]
      | next _ _ _ w' _ hf hc => simpa [hf] using (ih w').mp hc
    · intro h
      rcases hf : f i w with ⟨w', b⟩
      rw [hf] at h
      cases b
      · exact .next i is w w' _ hf ((ih w').mpr (by simpa using h))
      · simp only [if_true] at h
        rw [← h]
        exact .throws i is w w' hf

theorem comma_append (f : ι → W → W × Bool) (a b : List ι) (w : W) :
    comma f (a ++ b) w = if (comma f a w).2 then comma f a w else comma f b (comma f a w).1 := by
  induction a generalizing w with
  | nil => simp [comma]
  | cons i a ih =>
    rw [List.cons_append, comma, comma]
    by_cases h : (f i w).2 = true
    · simp [h]
    · simp [h, ih]

theorem comma_map (f : ι → W → W × Bool) (g : κ → ι) (l : List κ) (w : W) :
    comma f (l.map g) w = comma (fun k => f (g k)) l w := by
  induction l generalizing w with
  | nil => rfl
  | cons k l ih => rw [List.map_cons, comma, comma, ih]

theorem comma_nested (f : ℕ → ℕ → W → W × Bool) (a b : List ℕ) (w : W) :
    comma (fun i w => comma (fun j w => f i j w) b w) a w =
      comma (fun p : ℕ × ℕ => f p.1 p.2) (a.flatMap fun i => b.map fun j => (i, j)) w := by
  induction a generalizing w with
  | nil => rfl
  | cons i a ih =>
    rw [List.flatMap_cons, comma_append, comma, comma_map, ih]

theorem rows_length (a n2 : ℕ) : ((List.range a).flatMap fun i => (List.range n2).map fun j => (i, j)).length = a * n2 := by
  simp [List.length_flatMap]

theorem rowMajor (n1 n2 : ℕ) : RowMajor n1 n2 ((List.range n1).flatMap fun i => (List.range n2).map fun j => (i, j)) := by
  refine ⟨rows_length n1 n2, ?_⟩
  induction n1 with
  | zero => intro i hi; omega
  | succ n ih =>
    intro i hi j hj
    rw [List.range_succ, List.flatMap_append]
    by_cases h : i < n
    · rw [List.getElem?_append_left]
      · exact ih i h j hj
      · rw [rows_length]
        have : (i + 1) * n2 ≤ n * n2 := Nat.mul_le_mul_right n2 h
        rw [Nat.add_mul] at this
        omega
    · have e : i = n := by omega
      subst e
      rw [List.getElem?_append_right (by rw [rows_length]; omega), rows_length]
      have e : i * n2 + j - i * n2 = j := by omega
      rw [e]
      simp [hj]

theorem rowMajor_unique (n1 n2 : ℕ) (l l' : List (ℕ × ℕ)) (h : RowMajor n1 n2 l) (h' : RowMajor n1 n2 l') : l = l' := by
  apply List.ext_getElem?
  intro k
  by_cases hk : k < n1 * n2
  · have h2 : 0 < n2 := by
      rcases Nat.eq_zero_or_pos n2 with e | e
      · rw [e] at hk; omega
      · exact e
    have e : k / n2 * n2 + k % n2 = k := Nat.div_add_mod' k n2
    have h1 : k / n2 < n1 := (Nat.div_lt_iff_lt_mul h2).mpr hk
    rw [← e, h.2 _ h1 _ (Nat.mod_lt _ h2), h'.2 _ h1 _ (Nat.mod_lt _ h2)]
  · rw [List.getElem?_eq_none (by rw [h.1]; omega), List.getElem?_eq_none (by rw [h'.1]; omega)]

end Verif.Proofs.Sequences
