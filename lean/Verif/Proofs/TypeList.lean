import Verif.Model.TypeList
import Verif.Spec.TypeList
import Mathlib.Tactic

/-!
# Lemmas about lists of types
-/

namespace Verif.Proofs.TypeList

open Verif.Model.TypeList Verif.Spec.TypeList

variable {α : Type}

/-- The page sizes the header accepts. -/
def Paged (p : ℕ) : Prop := p = 8 ∨ p = 16 ∨ p = 32 ∨ p = 48 ∨ p = 64

theorem paged_of {u : Option ℕ} {p : ℕ} (h : pageSize u = some p) : Paged p := by
  simp only [pageSize] at h
  split_ifs at h with h1 h2 h3 h4 h5
  all_goals
    injection h with h
    subst h
    first | assumption | (simp [Paged])

theorem skip_ok {p n : ℕ} (hp : Paged p) (h1 : 1 ≤ n) (h2 : n ≤ p) : hasSkip p n = true := by
  rcases hp with rfl | rfl | rfl | rfl | rfl <;> simp [hasSkip] <;> omega

theorem prefix_ok {p n : ℕ} (hp : Paged p) (h1 : 2 ≤ n) (h2 : n ≤ p) : hasPrefix p n = true := by
  rcases hp with rfl | rfl | rfl | rfl | rfl <;> simp [hasPrefix] <;> omega

theorem single_ok {p n : ℕ} (hp : Paged p) (h1 : 1 ≤ n) (h2 : n < p) : hasSingle p n = true := by
  rcases hp with rfl | rfl | rfl | rfl | rfl <;> simp [hasSingle] <;> omega

theorem selector_ok {p n : ℕ} (hp : Paged p) (h1 : 1 ≤ n) (h2 : n < p) : hasSelector p n = true := by
  rcases hp with rfl | rfl | rfl | rfl | rfl <;> simp [hasSelector] <;> omega

/-- What a slice should be. -/
def want (l : List α) (s n : ℕ) : Option (List α) :=
  if l.length ≤ s ∨ n = 0 then some []
  else if s + n ≤ l.length then some ((l.drop s).take n) else none

theorem want_one (l : List α) (s : ℕ) (h : s < l.length) : want l s 1 = some [l[s]] := by
  have h1 : ¬(l.length ≤ s ∨ (1 : ℕ) = 0) := by omega
  have h2 : s + 1 ≤ l.length := h
  rw [want, if_neg h1, if_pos h2, List.drop_eq_getElem_cons h]
  rfl

theorem want_drop (l : List α) (s k n : ℕ) (hk : k ≤ s) (hs : s < l.length) :
    want (l.drop k) (s - k) n = want l s n := by
  simp only [want, List.length_drop, List.drop_drop]
  have e : k + (s - k) = s := by omega
  rw [e]
  by_cases hn : n = 0
  · simp [hn]
  · have h1 : ¬(l.length - k ≤ s - k ∨ n = 0) := by omega
    have h2 : ¬(l.length ≤ s ∨ n = 0) := by omega
    rw [if_neg h1, if_neg h2]
    by_cases h3 : s + n ≤ l.length
    · rw [if_pos h3, if_pos (by omega)]
    · rw [if_neg h3, if_neg (by omega)]

theorem collect_eq (f : ℕ → Option α) (l : List α) (hf : ∀ i, f i = l[i]?) (n s : ℕ) (hs : s + n ≤ l.length) :
    collect f s n = some ((l.drop s).take n) := by
  induction n generalizing s with
  | zero => simp [collect]
  | succ n ih =>
    rw [collect, hf, List.getElem?_eq_getElem (by omega), ih (s + 1) (by omega),
      List.drop_eq_getElem_cons (show s < l.length by omega)]
    rfl

theorem collect_none (f : ℕ → Option α) (l : List α) (hf : ∀ i, f i = l[i]?) (n s : ℕ) (hs : l.length < s + n)
    (h0 : s ≤ l.length) : collect f s n = none := by
  induction n generalizing s with
  | zero => omega
  | succ n ih =>
    rw [collect, hf]
    by_cases h : s < l.length
    · rw [List.getElem?_eq_getElem h, ih (s + 1) (by omega) (by omega)]
      rfl
    · rw [List.getElem?_eq_none (by omega)]
      rfl

theorem select_eq (c : Config) (hp : Paged c.page) (f : List α → ℕ → ℕ → Option (List α)) (l : List α)
    (hf : ∀ n, f l n 1 = want l n 1) (n : ℕ) : selectWith c f l n = l[n]? := by
  unfold selectWith
  have key : (f l n 1).bind List.head? = l[n]? := by
    rw [hf]
    by_cases h : n < l.length
    · rw [want_one l n h, List.getElem?_eq_getElem h]
      rfl
    · rw [want, if_pos (Or.inl (by omega)), List.getElem?_eq_none (by omega)]
      rfl
  split_ifs with h1 h2 h3 h4 h5
  · rfl
  · subst h2
    exact List.head?_eq_getElem?
  · exact key
  · exact key
  · rfl
  · exact absurd (selector_ok hp (by omega) (by omega)) h5

theorem slice_eq (c : Config) (hp : Paged c.page) (d : ℕ) : ∀ (l : List α) (s n : ℕ), l.length ≤ 2 ^ 64 - 1 →
    2 * l.length + (if n = 1 then 0 else 1) < d → slice c d l s n = want l s n := by
  induction d with
  | zero => intro l s n _ h; omega
  | succ d ih =>
    intro l s n hs hd
    have skip : ∀ k m, 1 ≤ k → k ≤ c.page → k < l.length →
        (if hasSkip c.page k ∧ k < l.length then slice c d (l.drop k) 0 m else none) = want (l.drop k) 0 m := by
      intro k m h1 h2 h3
      rw [if_pos ⟨skip_ok hp h1 h2, h3⟩]
      apply ih
      · rw [List.length_drop]; omega
      · rw [List.length_drop]
        split_ifs <;> split_ifs at hd <;> omega
    rw [slice]
    unfold slicerSpec
    by_cases h0 : l.length = 0 ∨ n = 0 ∨ s ≥ l.length
    · rw [if_pos h0]
      simp only [want]
      rw [if_pos (by omega)]
    push Not at h0
    obtain ⟨hl, hn, hsl⟩ := h0
    rw [if_neg (by omega)]
    by_cases h1 : n = 1 ∧ c.builtin = true
    · rw [if_pos h1]
      obtain ⟨rfl, _⟩ := h1
      simp only
      rw [want_one l s hsl, List.getElem?_eq_getElem hsl]
      rfl
    rw [if_neg h1]
    by_cases h2 : s = 0 ∧ n = 1
    · rw [if_pos h2]
      obtain ⟨rfl, rfl⟩ := h2
      simp only
      rw [want_one l 0 hsl, List.head?_eq_getElem?, List.getElem?_eq_getElem hsl]
      rfl
    rw [if_neg h2]
    have hw : ∀ (hlt : s + n ≤ l.length), want l s n = some ((l.drop s).take n) := fun h => by
      rw [want, if_neg (by omega), if_pos h]
    have hw' : ∀ (hlt : l.length < s + n), want l s n = none := fun h => by
      rw [want, if_neg (by omega), if_neg (by omega)]
    by_cases h3 : s = 0 ∧ l.length = n
    · rw [if_pos h3]
      obtain ⟨rfl, rfl⟩ := h3
      simp only
      rw [hw (by omega)]
      simp
    rw [if_neg h3]
    have hpg : 8 ≤ c.page ∧ c.page ≤ 64 := by rcases hp with h | h | h | h | h <;> omega
    by_cases h4 : s ≥ c.jumbo
    · rw [if_pos h4]
      simp only
      by_cases hj : c.hasJumbo = true
      · have hj' : c.jumbo = 128 := by simp [Config.jumbo, hj]
        rw [hj'] at h4 ⊢
        rw [if_pos ⟨hj, by omega⟩, ih _ _ _ (by rw [List.length_drop]; omega) (by rw [List.length_drop]; split_ifs <;> split_ifs at hd <;> omega)]
        exact want_drop l s 128 n h4 hsl
      · have hj' : c.jumbo = 2 ^ 64 - 1 := by simp [Config.jumbo, hj]
        omega
    rw [if_neg h4]
    have arb : n ≠ 1 → collect (selectWith c (slice c d) l) s n = want l s n := by
      intro hn1
      have hf : ∀ i, selectWith c (slice c d) l i = l[i]? := fun i =>
        select_eq c hp (slice c d) l (fun k => ih l k 1 hs (by rw [if_pos rfl]; rw [if_neg hn1] at hd; omega)) i
      by_cases h : s + n ≤ l.length
      · rw [hw h]
        exact collect_eq _ l hf n s h
      · rw [hw' (by omega)]
        exact collect_none _ l hf n s (by omega) (by omega)
    by_cases h5 : c.builtin = true
    · rw [if_pos h5]
      exact arb (fun h => h1 ⟨h, h5⟩)
    rw [if_neg h5]
    by_cases h6 : s ≥ c.page
    · rw [if_pos h6]
      simp only
      rw [skip c.page _ (by omega) (le_refl _) (by omega)]
      have e : want (l.drop c.page) 0 (l.length - c.page) = some (l.drop c.page) := by
        rw [want, if_neg (by rw [List.length_drop]; omega), if_pos (by rw [List.length_drop]; omega)]
        rw [List.drop_zero, List.take_of_length_le (by rw [List.length_drop])]
      rw [e, Option.bind_some, ih _ _ _ (by rw [List.length_drop]; omega) (by rw [List.length_drop]; split_ifs <;> split_ifs at hd <;> omega)]
      exact want_drop l s c.page n h6 hsl
    rw [if_neg h6]
    by_cases h7 : n = 1
    · rw [if_pos h7]
      subst h7
      simp only
      rw [if_pos ⟨single_ok hp (by omega) (by omega), hsl⟩, want_one l s hsl, List.getElem?_eq_getElem hsl]
      rfl
    rw [if_neg h7]
    by_cases h8 : s = 0 ∧ n ≤ c.page
    · rw [if_pos h8]
      obtain ⟨rfl, h8⟩ := h8
      simp only
      by_cases h : n ≤ l.length
      · rw [if_pos ⟨prefix_ok hp (by omega) h8, h⟩, hw (by omega)]
        simp
      · rw [if_neg (by tauto), hw' (by omega)]
    rw [if_neg h8]
    by_cases h9 : s > 0
    · rw [if_pos h9]
      simp only
      rw [skip s n h9 (by omega) hsl]
      have := want_drop l s s n (le_refl _) hsl
      rwa [Nat.sub_self] at this
    rw [if_neg h9]
    exact arb h7


theorem want_piece (l : List α) (s n : ℕ) (r : List α) :
    want l s n = some r ↔ (l.length ≤ s ∧ r = []) ∨ Piece l s n r := by
  unfold want Piece
  constructor
  · intro h
    split_ifs at h with h1 h2
    · cases h
      by_cases hs : l.length ≤ s
      · exact Or.inl ⟨hs, rfl⟩
      · refine Or.inr ⟨l.take s, l.drop s, by simp, by simp; omega, ?_⟩
        rcases h1 with h1 | h1
        · exact absurd h1 hs
        · simp [h1]
    · cases h
      refine Or.inr ⟨l.take s, l.drop (s + n), ?_, by simp; omega, by simp; omega⟩
      rw [List.append_assoc, ← List.drop_drop, List.take_append_drop, List.take_append_drop]
  · rintro (⟨h, rfl⟩ | ⟨a, b, rfl, rfl, rfl⟩)
    · rw [if_pos (Or.inl h)]
    · simp only [List.length_append]
      by_cases hr : r.length = 0
      · rw [if_pos (Or.inr hr), List.length_eq_zero_iff.mp hr]
      · rw [if_neg (by omega), if_pos (by omega)]
        simp

theorem concatenate_eq (v : List (List α)) : concatenate v = v.flatten := by
  induction v using concatenate.induct with
  | case1 => simp [concatenate]
  | case2 a => simp [concatenate]
  | case3 a b v ih => rw [concatenate, ih]; simp

theorem remove_eq [DecidableEq α] (ts : List α) (r : α) : remove ts r = ts.filter (fun t => t ≠ r) := by
  rw [remove, concatenate_eq]
  induction ts with
  | nil => rfl
  | cons t ts ih =>
    rw [List.map_cons, List.flatten_cons, ih]
    by_cases h : t = r
    · simp [removeOne, h]
    · simp [removeOne, h, Ne.symm h]

theorem indexOfType_eq [DecidableEq α] (t : α) (i : ℕ) (l : List α) (k : ℕ) :
    indexOfType t i l = some k ↔ ∃ a b, l = a ++ t :: b ∧ t ∉ a ∧ k = i + a.length := by
  induction l generalizing i with
  | nil => simp [indexOfType]
  | cons u us ih =>
    rw [indexOfType]
    split_ifs with h
    · subst h
      constructor
      · intro h
        cases h
        exact ⟨[], us, by simp⟩
      · rintro ⟨a, b, h1, h2, rfl⟩
        cases a with
        | nil => rfl
        | cons x a =>
          injection h1 with h1 _
          exact absurd (h1 ▸ List.mem_cons_self) h2
    · rw [ih]
      constructor
      · rintro ⟨a, b, rfl, h2, rfl⟩
        refine ⟨u :: a, b, rfl, ?_, by simp; omega⟩
        intro hm
        rcases List.mem_cons.mp hm with h3 | h3
        · exact h h3
        · exact h2 h3
      · rintro ⟨a, b, h1, h2, rfl⟩
        cases a with
        | nil =>
          injection h1 with h1 _
          exact absurd h1.symm h
        | cons x a =>
          injection h1 with h1 h3
          refine ⟨a, b, h3, fun hm => h2 (List.mem_cons_of_mem _ hm), by simp; omega⟩

theorem foldl_or [DecidableEq α] (t : α) (us : List α) (acc : Bool) :
    us.foldl (fun acc u => acc || decide (t = u)) acc = true ↔ acc = true ∨ t ∈ us := by
  induction us generalizing acc with
  | nil => simp
  | cons u us ih =>
    rw [List.foldl_cons, ih]
    simp [or_assoc]

theorem foldl_and [DecidableEq α] (t : α) (us : List α) (acc : Bool) :
    us.foldl (fun acc u => acc && decide (t = u)) acc = true ↔ acc = true ∧ ∀ u ∈ us, t = u := by
  induction us generalizing acc with
  | nil => simp
  | cons u us ih =>
    rw [List.foldl_cons, ih]
    simp [and_assoc]

theorem foldl_sum (size : α → ℕ) (l : List α) (acc : ℕ) :
    l.foldl (fun acc t => acc + size t) acc = acc + (l.map size).sum := by
  induction l generalizing acc with
  | nil => simp
  | cons u us ih => rw [List.foldl_cons, ih]; simp; omega

theorem typeAt_eq (i : ℕ) (l : List α) : typeAtIndex i l = l[i]? := by
  induction l generalizing i with
  | nil => simp [typeAtIndex]
  | cons t ts ih =>
    cases i with
    | zero => simp [typeAtIndex]
    | succ i => simp [typeAtIndex, ih]

/-- The four pickers are instances of this. -/
def pick (better : α → α → Bool) : List α → Option α
  | [] => none
  | [t] => some t
  | t :: us => (pick better us).map fun u => if better u t then u else t

theorem pick_first (better : α → α → Bool) (irr : ∀ a, better a a = false)
    (tr : ∀ a b c, better a b → better b c → better a c) (ng : ∀ a b c, better a b → better c b = false → better a c)
    (l : List α) (a : α) (h : pick better l = some a) :
    FirstBest (fun x y => better y x = true) l a := by
  induction l generalizing a with
  | nil => cases h
  | cons t us ih =>
    cases us with
    | nil =>
      cases h
      exact ⟨[], [], rfl, by simp, by simp⟩
    | cons u us =>
      rw [pick] at h
      cases hp : pick better (u :: us) with
      | none => rw [hp] at h; cases h
      | some w =>
        rw [hp] at h
        simp only [Option.map_some, Option.some.injEq] at h
        obtain ⟨b, f, e, hb, hf⟩ := ih w hp
        split_ifs at h with hw
        · subst h
          refine ⟨t :: b, f, by rw [e]; rfl, ?_, hf⟩
          intro x hx
          rcases List.mem_cons.mp hx with rfl | hx
          · exact hw
          · exact hb x hx
        · subst h
          refine ⟨[], u :: us, rfl, by simp, ?_⟩
          intro x hx hbx
          rw [e, List.mem_append, List.mem_cons] at hx
          have hw' : better w t = false := by simpa using hw
          rcases hx with hx | rfl | hx
          · have := tr _ _ _ (hb x hx) hbx
            simp [this] at hw
          · exact hw hbx
          · exact hf x hx (ng _ _ _ hbx hw')
      · simp

theorem pick_some (better : α → α → Bool) (l : List α) (h : l ≠ []) : ∃ a, pick better l = some a := by
  induction l with
  | nil => exact absurd rfl h
  | cons t us ih =>
    cases us with
    | nil => exact ⟨t, rfl⟩
    | cons u us =>
      obtain ⟨a, ha⟩ := ih (by simp)
      exact ⟨_, by rw [pick, ha]; rfl; simp⟩

theorem largest_pick (size : α → ℕ) (l : List α) : largest size l = pick (fun u t => size u > size t) l := by
  induction l with
  | nil => rfl
  | cons t us ih =>
    cases us with
    | nil => rfl
    | cons u us => rw [largest, pick, ih] <;> simp

theorem smallest_pick (size : α → ℕ) (l : List α) : smallest size l = pick (fun u t => size u < size t) l := by
  induction l with
  | nil => rfl
  | cons t us ih =>
    cases us with
    | nil => rfl
    | cons u us => rw [smallest, pick, ih] <;> simp

theorem most_pick (size : α → ℕ) (l : List α) : mostAligned size l = pick (fun u t => size u > size t) l := by
  induction l with
  | nil => rfl
  | cons t us ih =>
    cases us with
    | nil => rfl
    | cons u us => rw [mostAligned, pick, ih] <;> simp

theorem least_pick (size : α → ℕ) (l : List α) : leastAligned size l = pick (fun u t => size u < size t) l := by
  induction l with
  | nil => rfl
  | cons t us ih =>
    cases us with
    | nil => rfl
    | cons u us => rw [leastAligned, pick, ih] <;> simp

/-- `FirstBest` has at most one solution. -/
theorem firstBest_unique (worse : α → α → Prop) (l : List α) (a b : α)
    (ha : FirstBest worse l a) (hb : FirstBest worse l b) : a = b := by
  obtain ⟨p, q, e1, h1, h2⟩ := ha
  obtain ⟨p', q', e2, h3, h4⟩ := hb
  rw [e1] at e2
  rcases List.append_eq_append_iff.mp e2 with ⟨as, e3, e4⟩ | ⟨bs, e3, e4⟩
  · cases as with
    | nil =>
      injection e4 with e4 _
    | cons x as =>
      injection e4 with e4 e5
      have m1 : a ∈ p' := by rw [e3, e4]; simp
      have m2 : b ∈ q := by rw [e5]; simp
      exact absurd (h3 a m1) (h2 b m2)
  · cases bs with
    | nil =>
      injection e4 with e4 _
      exact e4.symm
    | cons x as =>
      injection e4 with e4 e5
      have m1 : b ∈ p := by rw [e3, e4]; simp
      have m2 : a ∈ q' := by rw [e5]; simp
      exact absurd (h1 b m1) (h4 a m2)

theorem largest_iff (size : α → ℕ) (l : List α) (a : α) :
    largest size l = some a ↔ FirstBest (fun x y => size x < size y) l a := by
  have key : ∀ b, largest size l = some b → FirstBest (fun x y => size x < size y) l b := by
    intro b hb
    rw [largest_pick] at hb
    have := pick_first _ (by simp) (by intro a b c; simp; omega) (by intro a b c; simp; omega) l b hb
    simpa [FirstBest] using this
  refine ⟨key a, fun h => ?_⟩
  have hl : l ≠ [] := by
    obtain ⟨p, q, e, _⟩ := h
    rw [e]; simp
  obtain ⟨b, hb⟩ := pick_some (fun u t => decide (size u > size t)) l hl
  rw [← largest_pick] at hb
  rw [hb, firstBest_unique _ _ _ _ (key b hb) h]

theorem smallest_iff (size : α → ℕ) (l : List α) (a : α) :
    smallest size l = some a ↔ FirstBest (fun x y => size y < size x) l a := by
  have key : ∀ b, smallest size l = some b → FirstBest (fun x y => size y < size x) l b := by
    intro b hb
    rw [smallest_pick] at hb
    have := pick_first _ (by simp) (by intro a b c; simp; omega) (by intro a b c; simp; omega) l b hb
    simpa [FirstBest] using this
  refine ⟨key a, fun h => ?_⟩
  have hl : l ≠ [] := by
    obtain ⟨p, q, e, _⟩ := h
    rw [e]; simp
  obtain ⟨b, hb⟩ := pick_some (fun u t => decide (size u < size t)) l hl
  rw [← smallest_pick] at hb
  rw [hb, firstBest_unique _ _ _ _ (key b hb) h]

theorem most_largest (size : α → ℕ) (l : List α) : mostAligned size l = largest size l := by
  rw [most_pick, largest_pick]

theorem least_smallest (size : α → ℕ) (l : List α) : leastAligned size l = smallest size l := by
  rw [least_pick, smallest_pick]

end Verif.Proofs.TypeList
