import Verif.Model.VectorStore
import Mathlib.Data.List.OfFn
import Mathlib.Data.List.FinRange
import Mathlib.Tactic.SplitIfs

/-! # Lemmas on the storage of vectors -/

namespace Verif.Proofs.VectorStore

open Verif.Spec.Parts Verif.Model.VectorStore

variable {α β γ : Type}

theorem parts_length {n : ℕ} (v : Store α n) : (parts v).length = n := by cases v <;> simp [parts]

theorem pos {n : ℕ} (v : Store α n) : 0 < n := by cases v <;> omega

theorem parts_inj {n : ℕ} {v w : Store α n} (h : parts v = parts w) : v = w := by
  cases v with
  | many v =>
    cases w with
    | many w => rw [show v = w from List.ofFn_injective h]
  | one | two | three | four => cases w; simp_all [parts]

theorem init_parts (zero : α) (n : ℕ) (l : List α) (h1 : 1 ≤ l.length) (h2 : l.length ≤ n) :
    ∃ v, init zero n l = some v ∧ parts v = padded zero n l := by
  match n, l with
  | 0, l => simp at h2; simp [h2] at h1
  | 1, [x] => exact ⟨_, rfl, rfl⟩
  | 2, [x] => exact ⟨_, rfl, rfl⟩
  | 2, [x, y] => exact ⟨_, rfl, rfl⟩
  | 3, [x] => exact ⟨_, rfl, rfl⟩
  | 3, [x, y] => exact ⟨_, rfl, rfl⟩
  | 3, [x, y, z] => exact ⟨_, rfl, rfl⟩
  | 4, [x] => exact ⟨_, rfl, rfl⟩
  | 4, [x, y] => exact ⟨_, rfl, rfl⟩
  | 4, [x, y, z] => exact ⟨_, rfl, rfl⟩
  | 4, [x, y, z, w] => exact ⟨_, rfl, rfl⟩
  | n + 5, l =>
    refine ⟨.many fun i => l.getD i zero, by simp only [init]; rw [if_pos h2], ?_⟩
    apply List.ext_getElem
    · simp [parts, padded]; omega
    · intro i hi1 hi2
      simp only [parts, List.getElem_ofFn, padded, List.getD_eq_getElem?_getD, List.getElem_append]
      split_ifs with h
      · simp [h]
      · simp at h; simp [h]
  | 1, x :: y :: l | 2, x :: y :: z :: l | 3, x :: y :: z :: w :: l | 4, x :: y :: z :: w :: u :: l => simp at h2

theorem component_parts {n : ℕ} (v : Store α n) (i : ℕ) : component v i = (parts v)[i]? := by
  cases v with
  | many values => simp only [component, parts, List.getElem?_ofFn]
  | one x => match i with | 0 => rfl | i + 1 => simp [component, parts]
  | two x y => match i with | 0 => rfl | 1 => rfl | i + 2 => simp [component, parts]
  | three x y z => match i with | 0 => rfl | 1 => rfl | 2 => rfl | i + 3 => simp [component, parts]
  | four x y z w => match i with | 0 => rfl | 1 => rfl | 2 => rfl | 3 => rfl | i + 4 => simp [component, parts]

theorem setComponent_parts {n : ℕ} (v : Store α n) (i : ℕ) (a : α) (h : i < n) :
    ∃ w, setComponent v i a = some w ∧ parts w = (parts v).set i a := by
  cases v with
  | many values =>
    refine ⟨_, by simp only [setComponent]; rw [if_pos h], ?_⟩
    apply List.ext_getElem
    · simp [parts]
    · intro k h1 h2
      simp only [parts, List.getElem_ofFn, List.getElem_set]
      by_cases e : i = k
      · simp [e]
      · rw [if_neg e, if_neg (Ne.symm e)]
  | one x => match i, h with | 0, _ => exact ⟨_, rfl, rfl⟩
  | two x y => match i, h with | 0, _ => exact ⟨_, rfl, rfl⟩ | 1, _ => exact ⟨_, rfl, rfl⟩
  | three x y z =>
    match i, h with | 0, _ => exact ⟨_, rfl, rfl⟩ | 1, _ => exact ⟨_, rfl, rfl⟩ | 2, _ => exact ⟨_, rfl, rfl⟩
  | four x y z w =>
    match i, h with
    | 0, _ => exact ⟨_, rfl, rfl⟩ | 1, _ => exact ⟨_, rfl, rfl⟩ | 2, _ => exact ⟨_, rfl, rfl⟩ | 3, _ => exact ⟨_, rfl, rfl⟩

theorem index_parts {n : ℕ} (v : Store α n) (i : ℕ) (h : i < n) : index v i = (parts v)[i]? := by
  unfold index
  rw [if_pos h]
  cases v with
  | many v => simp only [parts, List.getElem?_ofFn]
  | one | two | three | four => rfl

theorem indexConst_parts {n : ℕ} (v : Store α n) (i : ℕ) (h : i < n) : indexConst v i = (parts v)[i]? := by
  unfold indexConst
  rw [if_pos h]
  cases v with
  | many values => simp only [parts, List.getElem?_ofFn]
  | one x => match i, h with | 0, _ => rfl
  | two x y => match i, h with | 0, _ => rfl | 1, _ => rfl
  | three x y z => match i, h with | 0, _ => rfl | 1, _ => rfl | 2, _ => rfl
  | four x y z w => match i, h with | 0, _ => rfl | 1, _ => rfl | 2, _ => rfl | 3, _ => rfl

theorem mapM_some {δ : Type} (f : δ → Option α) (g : δ → α) (l : List δ) (h : ∀ x ∈ l, f x = some (g x)) :
    l.mapM f = some (l.map g) := by
  induction l with
  | nil => rfl
  | cons x l ih =>
    rw [List.mapM_cons, h x (by simp), ih (fun y hy => h y (by simp [hy]))]
    rfl

theorem mapM_get (l : List α) (k : ℕ) (h : k ≤ l.length) : (List.range k).mapM (fun i => l[i]?) = some (l.take k) := by
  induction k with
  | zero => rfl
  | succ k ih =>
    rw [List.range_succ, List.mapM_append, ih (by omega)]
    have hk : k < l.length := by omega
    simp only [List.mapM_cons, List.mapM_nil, List.getElem?_eq_getElem hk]
    rw [List.take_add_one, List.getElem?_eq_getElem hk]
    rfl

theorem mapM_parts {n : ℕ} (v : Store α n) (k : ℕ) (h : k ≤ n) : (List.range k).mapM (component v) = some ((parts v).take k) := by
  have : component v = fun i => (parts v)[i]? := funext (component_parts v)
  rw [this]
  exact mapM_get _ _ (by rw [parts_length]; exact h)

theorem fill (zero : α) (k : ℕ) : ∀ (m : List (Option α)) (a : ℕ), a + k = m.length →
    (List.range k).foldl (fun (m : List (Option α)) i => m.set (a + i) (some zero)) m = m.take a ++ List.replicate k (some zero) := by
  induction k with
  | zero => intro m a h; simp at h; simp [h]
  | succ k ih =>
    intro m a h
    rw [List.range_succ, List.foldl_append]
    have := ih (m.take (a + k)) a (by simp; omega)
    have h2 : (List.range k).foldl (fun (m : List (Option α)) i => m.set (a + i) (some zero)) m =
        (List.range k).foldl (fun (m : List (Option α)) i => m.set (a + i) (some zero)) (m.take (a + k)) ++ m.drop (a + k) := by
      have gen : ∀ (j : ℕ) (m : List (Option α)), j ≤ k → a + k < m.length →
          (List.range j).foldl (fun (m : List (Option α)) i => m.set (a + i) (some zero)) m =
          (List.range j).foldl (fun (m : List (Option α)) i => m.set (a + i) (some zero)) (m.take (a + k)) ++ m.drop (a + k) := by
        intro j m hj hm
        induction j with
        | zero => simp
        | succ j ihj =>
          rw [List.range_succ, List.foldl_append, List.foldl_append, ihj (by omega)]
          simp only [List.foldl_cons, List.foldl_nil]
          rw [List.set_append_left]
          have len : ∀ (j : ℕ) (m : List (Option α)),
              ((List.range j).foldl (fun (m : List (Option α)) i => m.set (a + i) (some zero)) m).length = m.length := by
            intro j m
            induction j with
            | zero => simp
            | succ j ih => rw [List.range_succ, List.foldl_append]; simp [ih]
          rw [len]; simp; omega
      exact gen k m le_rfl (by omega)
    rw [h2, this]
    simp only [List.foldl_cons, List.foldl_nil, List.take_take]
    rw [show min a (a + k) = a by omega]
    have hd : m.drop (a + k) = [m[a + k]'(by omega)] := by
      rw [List.drop_eq_getElem_cons (by omega)]
      rw [List.drop_eq_nil_of_le (by omega)]
    rw [hd, List.set_append_right _ _ (by simp)]
    have : a + k - (m.take a ++ List.replicate k (some zero)).length = 0 := by simp; omega
    rw [this]
    simp only [List.set_cons_zero]
    rw [List.replicate_succ', List.append_assoc]

theorem copyLoop (cast : β → α) (n : ℕ) (vals : List β) : ∀ k, k ≤ vals.length → k ≤ n →
    (List.range k).foldlM (fun (m : List (Option α)) i => do
        let x ← vals[i]?
        some (m.set i (some (cast x)))) (List.replicate n none) =
      some ((vals.take k).map (fun x => some (cast x)) ++ List.replicate (n - k) none) := by
  intro k
  induction k with
  | zero => intro _ _; simp
  | succ k ih =>
    intro h1 h2
    rw [List.range_succ, List.foldlM_append, ih (by omega) (by omega)]
    have hk : k < vals.length := by omega
    simp only [Option.bind_eq_bind, Option.bind_some, List.foldlM_cons, List.foldlM_nil, List.getElem?_eq_getElem hk]
    have e1 : List.replicate (n - k) (none : Option α) = none :: List.replicate (n - (k + 1)) none := by
      rw [← List.replicate_succ]; congr 1; omega
    have e2 : k - ((vals.take k).map (fun x => some (cast x))).length = 0 := by simp; omega
    rw [e1, List.set_append_right _ _ (by simp), e2, List.set_cons_zero, List.take_add_one, List.getElem?_eq_getElem hk, List.map_append, List.append_assoc]
    rfl

theorem ofPointer_parts (zero : α) (cast : β → α) (n : ℕ) (vals : List β) (num : ℕ) (hn : 0 < n) (h1 : num ≤ n) (h2 : num ≤ vals.length) :
    ∃ v, ofPointer zero cast n (some vals) num = some v ∧ parts v = padded zero n ((vals.take num).map cast) := by
  have key : ofPointer zero cast n (some vals) num = init zero n (padded zero n ((vals.take num).map cast)) := by
    unfold ofPointer
    dsimp only
    rw [if_pos h1, copyLoop cast n vals num h2 h1]
    simp only [Option.bind_eq_bind, Option.bind_some]
    have e : (if num < n then
        (List.range (n - num)).foldl (fun (m : List (Option α)) i => m.set (num + i) (some zero))
          ((vals.take num).map (fun x => some (cast x)) ++ List.replicate (n - num) none)
        else (vals.take num).map (fun x => some (cast x)) ++ List.replicate (n - num) none) =
        (padded zero n ((vals.take num).map cast)).map some := by
      split_ifs with h
      · rw [fill zero (n - num) _ num (by simp; omega)]
        simp [padded, Function.comp_def, h2]
      · have : num = n := by omega
        simp [padded, this, Function.comp_def, List.length_take]
        omega
    rw [e]
    have : written ((padded zero n ((vals.take num).map cast)).map some) = some (padded zero n ((vals.take num).map cast)) := by
      unfold written
      rw [List.mapM_map]
      rw [mapM_some (id ∘ some) id _ (fun x _ => rfl)]
      simp
    rw [this]
    rfl
  have len : (padded zero n ((vals.take num).map cast)).length = n := by simp [padded, h2]; omega
  obtain ⟨v, hv, hp⟩ := init_parts zero n (padded zero n ((vals.take num).map cast)) (by omega) (by omega)
  refine ⟨v, by rw [key, hv], ?_⟩
  rw [hp]
  generalize padded zero n ((vals.take num).map cast) = l at len
  simp [padded, len]

theorem all_parts {n : ℕ} (f : α → β → Bool) (v : Store α n) (w : Store β n) :
    all f v w = (List.zipWith f (parts v) (parts w)).all id := by
  cases v with
  | one x => cases w; simp [all, parts]
  | two x y => cases w; simp [all, parts]
  | three x y z => cases w; simp [all, parts, Bool.and_assoc]
  | four x y z u => cases w; simp [all, parts, Bool.and_assoc]
  | many v =>
    cases w with
    | many w =>
      rw [Bool.eq_iff_iff]
      simp only [all, parts, List.all_eq_true, List.mem_finRange, true_imp_iff]
      constructor
      · intro h x hx
        obtain ⟨i, hi, rfl⟩ := List.mem_iff_getElem.1 hx
        simp only [List.getElem_zipWith, List.getElem_ofFn, h, id]
      · intro h i
        have := h (f (v i) (w i)) (by
          rw [List.mem_iff_getElem]
          exact ⟨i.val, by simp only [List.length_zipWith, List.length_ofFn]; omega, by simp only [List.getElem_zipWith, List.getElem_ofFn]⟩)
        exact this

theorem any_parts {n : ℕ} (f : α → Bool) (v : Store α n) : any f v = (parts v).any f := by
  cases v with
  | one x => simp [any, parts]
  | two x y => simp [any, parts]
  | three x y z => simp [any, parts, Bool.or_assoc]
  | four x y z u => simp [any, parts, Bool.or_assoc]
  | many v =>
    rw [Bool.eq_iff_iff]
    simp only [any, parts, List.any_eq_true, List.mem_finRange, true_and, List.mem_ofFn, exists_exists_eq_and]

theorem foldlM_ofFn {op : α → α → Option α} : ∀ {k : ℕ} (f : Fin k → α) (val : α),
    (List.finRange k).foldlM (fun val i => op val (f i)) val = (List.ofFn f).foldlM op val := by
  intro k
  induction k with
  | zero => intro f val; simp
  | succ k ih =>
    intro f val
    rw [List.finRange_succ, List.ofFn_succ, List.foldlM_cons, List.foldlM_cons]
    simp only [List.foldlM_map, ih]

theorem accumulate_parts {n : ℕ} (op : α → α → Option α) (v : Store α n) (a : α) (l : List α) (h : parts v = a :: l) :
    accumulate op v = l.foldlM op a := by
  cases v with
  | one x => simp [parts] at h; simp [accumulate, h.1, h.2]
  | two x y => simp [parts] at h; simp [accumulate, ← h.1, ← h.2]
  | three x y z => simp [parts] at h; simp [accumulate, ← h.1, ← h.2]
  | four x y z w => simp [parts] at h; simp [accumulate, ← h.1, ← h.2]
  | many v =>
    simp only [parts] at h
    rw [List.ofFn_succ, List.ofFn_succ, List.ofFn_succ, List.ofFn_succ] at h
    injection h with h1 h2
    subst h1 h2
    simp only [accumulate, List.foldlM_cons]
    refine bind_congr fun a1 => bind_congr fun a2 => bind_congr fun a3 => ?_
    exact foldlM_ofFn _ a3

theorem gather_some {n : ℕ} (f : Fin n → Option γ) (g : Fin n → γ) (h : ∀ i, f i = some (g i)) : gather f = some g := by
  unfold gather
  rw [dif_pos (fun i => by rw [h i]; rfl)]
  congr 1
  funext i
  simp [h i]

/-- A component-wise function that is defined for all components. -/
theorem construct_parts {n : ℕ} (f : α → β → Option γ) (g : α → β → γ) (v : Store α n) (w : Store β n)
    (h : ∀ p ∈ (parts v).zip (parts w), f p.1 p.2 = some (g p.1 p.2)) :
    ∃ r, construct f v w = some r ∧ parts r = List.zipWith g (parts v) (parts w) := by
  cases v with
  | one x => cases w; simp [parts] at h; exact ⟨_, by simp only [construct, h]; rfl, rfl⟩
  | two x y => cases w; simp [parts] at h; exact ⟨_, by simp only [construct, h]; rfl, rfl⟩
  | three x y z => cases w; simp [parts] at h; exact ⟨_, by simp only [construct, h]; rfl, rfl⟩
  | four x y z u => cases w; simp [parts] at h; exact ⟨_, by simp only [construct, h]; rfl, rfl⟩
  | many v =>
    cases w with
    | many w =>
      have h' : ∀ i, f (v i) (w i) = some (g (v i) (w i)) := by
        intro i
        refine h (v i, w i) ?_
        rw [List.mem_iff_getElem]
        refine ⟨i.val, by simp only [parts, List.length_zip, List.length_ofFn]; omega, ?_⟩
        simp only [parts, List.getElem_zip, List.getElem_ofFn]
      refine ⟨_, by simp only [construct]; rw [gather_some _ (fun i => g (v i) (w i)) h']; rfl, ?_⟩
      simp only [parts]
      apply List.ext_getElem
      · simp only [List.length_ofFn, List.length_zipWith]; omega
      · intro i h1 h2
        simp only [List.getElem_zipWith, List.getElem_ofFn]

theorem construct1_parts {n : ℕ} (f : α → Option γ) (g : α → γ) (v : Store α n) (h : ∀ x ∈ parts v, f x = some (g x)) :
    ∃ r, construct1 f v = some r ∧ parts r = (parts v).map g := by
  cases v with
  | one x => simp [parts] at h; exact ⟨_, by simp only [construct1, h]; rfl, rfl⟩
  | two x y => simp [parts] at h; exact ⟨_, by simp only [construct1, h]; rfl, rfl⟩
  | three x y z => simp [parts] at h; exact ⟨_, by simp only [construct1, h]; rfl, rfl⟩
  | four x y z u => simp [parts] at h; exact ⟨_, by simp only [construct1, h]; rfl, rfl⟩
  | many v =>
    have h' : ∀ i, f (v i) = some (g (v i)) := fun i => h (v i) (by simp only [parts, List.mem_ofFn]; exact ⟨i, rfl⟩)
    refine ⟨_, by simp only [construct1]; rw [gather_some _ (fun i => g (v i)) h']; rfl, ?_⟩
    simp only [parts, List.map_ofFn]
    rfl

/-- An assignment component by component. -/
theorem assign_loop {n : ℕ} (f : α → α → Option α) (g : α → α → α) (v : Store α n) (rhs : Rhs α n) (w : Store α n)
    (hr : rhs = .other w ∨ (rhs = .itself ∧ w = v)) (h : ∀ p ∈ (parts v).zip (parts w), f p.1 p.2 = some (g p.1 p.2)) :
    ∀ k ≤ n, ∃ r, (List.range k).foldlM (fun v i => do
        let a ← component v i
        let b ← match rhs with
          | .other w => component w i
          | .itself => component v i
        setComponent v i (← f a b)) v = some r ∧
      parts r = (List.zipWith g (parts v) (parts w)).take k ++ (parts v).drop k := by
  intro k
  have lv := parts_length v
  have lw := parts_length w
  induction k with
  | zero => intro _; exact ⟨v, rfl, by simp⟩
  | succ k ih =>
    intro hk
    obtain ⟨r, hr1, hr2⟩ := ih (by omega)
    have a1 : component r k = some ((parts v)[k]'(by omega)) := by
      rw [component_parts, hr2, List.getElem?_append_right (by simp [lv, lw])]
      simp [lv, lw, show min k n = k by omega, show k < n by omega]
    have a2 : component w k = some ((parts w)[k]'(by omega)) := by
      rw [component_parts, List.getElem?_eq_getElem]
    have a3 : f ((parts v)[k]'(by omega)) ((parts w)[k]'(by omega)) = some (g ((parts v)[k]'(by omega)) ((parts w)[k]'(by omega))) := by
      refine h ((parts v)[k]'(by omega), (parts w)[k]'(by omega)) ?_
      rw [List.mem_iff_getElem]
      exact ⟨k, by simp [lv, lw]; omega, by simp⟩
    obtain ⟨s, hs1, hs2⟩ := setComponent_parts r k (g ((parts v)[k]'(by omega)) ((parts w)[k]'(by omega))) (by omega)
    refine ⟨s, ?_, ?_⟩
    · rw [List.range_succ, List.foldlM_append, hr1]
      simp only [Option.bind_eq_bind, Option.bind_some, List.foldlM_cons, List.foldlM_nil]
      rw [a1]
      rcases hr with rfl | ⟨rfl, rfl⟩
      · simp only [Option.bind_some, a2, a3, hs1]; rfl
      · simp only [Option.bind_some, a3, hs1]; rfl
    · rw [hs2, hr2]
      have e : (parts v).drop k = (parts v)[k]'(by omega) :: (parts v).drop (k + 1) := List.drop_eq_getElem_cons (by omega)
      rw [e, List.set_append_right _ _ (by simp [lv, lw])]
      have e0 : k - ((List.zipWith g (parts v) (parts w)).take k).length = 0 := by simp [lv, lw]; omega
      have hk' : k < (List.zipWith g (parts v) (parts w)).length := by simp [lv, lw]; omega
      rw [e0, List.set_cons_zero, List.take_add_one, List.getElem?_eq_getElem hk']
      simp

theorem assign_parts {n : ℕ} (f : α → α → Option α) (g : α → α → α) (v : Store α n) (rhs : Rhs α n) (w : Store α n)
    (hr : rhs = .other w ∨ (rhs = .itself ∧ w = v)) (h : ∀ p ∈ (parts v).zip (parts w), f p.1 p.2 = some (g p.1 p.2)) :
    ∃ r, assign f v rhs = some r ∧ parts r = List.zipWith g (parts v) (parts w) := by
  obtain ⟨r, h1, h2⟩ := assign_loop f g v rhs w hr h n le_rfl
  refine ⟨r, h1, ?_⟩
  rw [h2, List.take_of_length_le (by simp [parts_length]), List.drop_of_length_le (by simp [parts_length]), List.append_nil]

theorem assign1_loop {n : ℕ} (f : α → Option α) (g : α → α) (v : Store α n) (h : ∀ x ∈ parts v, f x = some (g x)) :
    ∀ k ≤ n, ∃ r, (List.range k).foldlM (fun v i => do setComponent v i (← f (← component v i))) v = some r ∧
      parts r = ((parts v).map g).take k ++ (parts v).drop k := by
  intro k
  have lv := parts_length v
  induction k with
  | zero => intro _; exact ⟨v, rfl, by simp⟩
  | succ k ih =>
    intro hk
    obtain ⟨r, hr1, hr2⟩ := ih (by omega)
    have a1 : component r k = some ((parts v)[k]'(by omega)) := by
      rw [component_parts, hr2, List.getElem?_append_right (by simp [lv])]
      simp [lv, show min k n = k by omega, show k < n by omega]
    have a3 : f ((parts v)[k]'(by omega)) = some (g ((parts v)[k]'(by omega))) := h _ (List.getElem_mem _)
    obtain ⟨s, hs1, hs2⟩ := setComponent_parts r k (g ((parts v)[k]'(by omega))) (by omega)
    refine ⟨s, ?_, ?_⟩
    · rw [List.range_succ, List.foldlM_append, hr1]
      simp only [Option.bind_eq_bind, Option.bind_some, List.foldlM_cons, List.foldlM_nil]
      rw [a1]
      simp only [Option.bind_some, a3, hs1]; rfl
    · rw [hs2, hr2]
      have e : (parts v).drop k = (parts v)[k]'(by omega) :: (parts v).drop (k + 1) := List.drop_eq_getElem_cons (by omega)
      rw [e, List.set_append_right _ _ (by simp [lv])]
      have e0 : k - (((parts v).map g).take k).length = 0 := by simp [lv]; omega
      have hk' : k < ((parts v).map g).length := by simp [lv]; omega
      rw [e0, List.set_cons_zero, List.take_add_one, List.getElem?_eq_getElem hk']
      simp

theorem assign1_parts {n : ℕ} (f : α → Option α) (g : α → α) (v : Store α n) (h : ∀ x ∈ parts v, f x = some (g x)) :
    ∃ r, assign1 f v = some r ∧ parts r = (parts v).map g := by
  obtain ⟨r, h1, h2⟩ := assign1_loop f g v h n le_rfl
  refine ⟨r, h1, ?_⟩
  rw [h2, List.take_of_length_le (by simp [parts_length]), List.drop_of_length_le (by simp [parts_length]), List.append_nil]

end Verif.Proofs.VectorStore
