import Verif.Model.Printing
import Mathlib.Tactic.IntervalCases
import Mathlib.Tactic.NormNum
import Mathlib.Tactic.SplitIfs
import Mathlib.Tactic.Tauto

/-! # Lemmas on printing -/

namespace Verif.Proofs.Printing

open Verif.Spec.Printing Verif.Model.Printing

/-- The text of one number in a stream. -/
def cell {T : Type} (k : Scalar T) (s : Stream) (x : T) : List Char :=
  atRight s.width s.fill (k.text { s.format with adjust := .right } x)

/-- The stream differs only in its adjustment and what was written. -/
structure Like (s s' : Stream) (text : List Char) : Prop where
  format : { s'.format with adjust := .right } = { s.format with adjust := .right }
  width : s'.width = s.width
  fill : s'.fill = s.fill
  out : s'.out = s.out ++ text

theorem Like.refl (s : Stream) : Like s s [] := ⟨rfl, rfl, rfl, by simp⟩

theorem Like.trans {s s' s'' : Stream} {a b : List Char} (h : Like s s' a) (h' : Like s' s'' b) : Like s s'' (a ++ b) :=
  ⟨h'.format.trans h.format, h'.width.trans h.width, h'.fill.trans h.fill, by rw [h'.out, h.out, List.append_assoc]⟩

theorem Like.cell {T : Type} {s s' : Stream} {a : List Char} (h : Like s s' a) (k : Scalar T) (x : T) : cell k s' x = cell k s x := by
  unfold Printing.cell; rw [h.format, h.width, h.fill]

theorem like_number {T : Type} (k : Scalar T) (s : Stream) (x : T) : Like s (printNumber k s x) (cell k s x) :=
  ⟨rfl, rfl, rfl, rfl⟩

theorem like_string (s : Stream) (t : List Char) : Like s (printString s t) t := ⟨rfl, rfl, rfl, rfl⟩

theorem like_if (s : Stream) (p : Prop) [Decidable p] (t : List Char) :
    Like s (if p then printString s t else s) (if p then t else []) := by
  split_ifs
  · exact like_string s t
  · exact Like.refl s

/-- Items after the first. -/
def tail (sep : List Char) (l : List (List Char)) : List Char := l.flatMap (sep ++ ·)

theorem join_cons (sep x : List Char) (l : List (List Char)) : join sep (x :: l) = x ++ tail sep l := by
  induction l generalizing x with
  | nil => simp [join, tail]
  | cons y l ih => rw [join, ih]; simp [tail, List.append_assoc]

theorem like_items {T : Type} (k : Scalar T) (x : List T) (i : ℕ) (s : Stream) :
    Like s (listItems k x i s) (if i = 0 then commas (x.map (cell k s)) else tail ", ".toList (x.map (cell k s))) := by
  induction x generalizing i s with
  | nil => simp only [listItems, List.map_nil, tail, List.flatMap_nil, commas, join, ite_self]; exact Like.refl s
  | cons a rest ih =>
    rw [listItems]
    have h1 := like_if s (i > 0) ", ".toList
    generalize (if i > 0 then printString s ", ".toList else s) = s1 at h1 ⊢
    have h2 := like_number k s1 a
    have h12 := h1.trans h2
    have h3 := h12.trans (ih (i + 1) (printNumber k s1 a))
    rw [if_neg (Nat.succ_ne_zero i)] at h3
    have e : rest.map (cell k (printNumber k s1 a)) = rest.map (cell k s) := by
      apply List.map_congr_left; intro y _; exact h12.cell k y
    rw [e, h1.cell] at h3
    convert h3 using 1
    split_ifs with h0 h0' h0'
    · omega
    · simp [commas, join_cons]
    · simp [tail, List.append_assoc]
    · omega

theorem indent_eq (s : Stream) (n : ℕ) : Like s (indent s n) (List.replicate (2 * n) ' ') := by
  induction n using Nat.strong_induction_on generalizing s with
  | _ n ih =>
    rw [indent]
    split_ifs with h
    · have h1 := like_string s (List.replicate (min n 25 * 2) ' ')
      have h2 := h1.trans (ih (n - 25) (by omega) _)
      rw [List.replicate_append_replicate] at h2
      have : min n 25 * 2 + 2 * (n - 25) = 2 * n := by omega
      rwa [this] at h2
    · have : n = 0 := by omega
      subst this; exact Like.refl s

theorem like_break (s : Stream) : Like s (breakingListItem s 1) ",\n  ".toList :=
  (like_string s ",\n".toList).trans (indent_eq _ 1)

/-- Columns from `c` on. -/
theorem like_row {T : Type} (k : Scalar T) (m : ℕ → T) (rows cols r : ℕ) (n c : ℕ) (hn : cols - c = n) (s : Stream) :
    Like s (printRow k m rows cols r c s)
      (if c = 0 then commas ((List.range' c n).map fun c => cell k s (m (c * rows + r)))
        else tail ", ".toList ((List.range' c n).map fun c => cell k s (m (c * rows + r)))) := by
  induction n generalizing c s with
  | zero =>
    rw [printRow, dif_neg (by omega)]
    simp only [List.range'_zero, List.map_nil, tail, List.flatMap_nil, commas, join, ite_self]; exact Like.refl s
  | succ n ih =>
    rw [printRow, dif_pos (by omega)]
    have h1 := like_if s (c > 0) ", ".toList
    dsimp only
    generalize (if c > 0 then printString s ", ".toList else s) = s1 at h1 ⊢
    have h12 := h1.trans (like_number k s1 (m (c * rows + r)))
    have h3 := h12.trans (ih (c + 1) (by omega) (printNumber k s1 (m (c * rows + r))))
    rw [if_neg (Nat.succ_ne_zero c)] at h3
    have e : ((List.range' (c + 1) n).map fun c' => cell k (printNumber k s1 (m (c * rows + r))) (m (c' * rows + r))) =
        (List.range' (c + 1) n).map fun c' => cell k s (m (c' * rows + r)) := by
      apply List.map_congr_left; intro y _; exact h12.cell k _
    rw [e, h1.cell] at h3
    convert h3 using 1
    rw [List.range'_succ]
    split_ifs with h0 h0' h0'
    · omega
    · simp [commas, join_cons]
    · simp [tail, List.append_assoc]
    · omega

/-- One row. -/
def row {T : Type} (k : Scalar T) (s : Stream) (m : ℕ → T) (rows cols r : ℕ) : List Char :=
  commas ((List.range cols).map fun c => cell k s (m (c * rows + r)))

theorem like_rows {T : Type} (k : Scalar T) (m : ℕ → T) (rows cols : ℕ) (n r : ℕ) (hn : rows - r = n) (s : Stream) :
    Like s (printRows k m rows cols r s)
      (if r = 0 then join ",\n  ".toList ((List.range' r n).map fun r => row k s m rows cols r)
        else tail ",\n  ".toList ((List.range' r n).map fun r => row k s m rows cols r)) := by
  induction n generalizing r s with
  | zero =>
    rw [printRows, dif_neg (by omega)]
    simp only [List.range'_zero, List.map_nil, tail, List.flatMap_nil, join, ite_self]; exact Like.refl s
  | succ n ih =>
    rw [printRows, dif_pos (by omega)]
    have h1 : Like s (if r > 0 then breakingListItem s 1 else s) (if r > 0 then ",\n  ".toList else []) := by
      split_ifs
      · exact like_break s
      · exact Like.refl s
    dsimp only
    generalize (if r > 0 then breakingListItem s 1 else s) = s1 at h1 ⊢
    have h2 := like_row k m rows cols r cols 0 (by omega) s1
    rw [if_pos rfl] at h2
    have e2 : (commas ((List.range' 0 cols).map fun c => cell k s1 (m (c * rows + r)))) = row k s m rows cols r := by
      unfold row
      rw [← List.range_eq_range']
      congr 1
      apply List.map_congr_left; intro y _; exact h1.cell k _
    rw [e2] at h2
    have h12 := h1.trans h2
    have h3 := h12.trans (ih (r + 1) (by omega) (printRow k m rows cols r 0 s1))
    rw [if_neg (Nat.succ_ne_zero r)] at h3
    have e : ((List.range' (r + 1) n).map fun r' => row k (printRow k m rows cols r 0 s1) m rows cols r') =
        (List.range' (r + 1) n).map fun r' => row k s m rows cols r' := by
      apply List.map_congr_left; intro y _
      unfold row
      congr 1
      apply List.map_congr_left; intro z _; exact h12.cell k _
    rw [e] at h3
    convert h3 using 1
    rw [List.range'_succ]
    split_ifs with h0 h0' h0'
    · omega
    · simp [join_cons]
    · simp [tail, List.append_assoc]
    · omega

/-- One part of a shape. -/
def part {T : Type} (k : Scalar T) (s : Stream) (e : List T) : List Char :=
  if e.length > 1 then braces (commas (e.map (cell k s))) else commas (e.map (cell k s))

theorem like_compound {T : Type} (k : Scalar T) (elems : List (List T)) (i : ℕ) (s : Stream) :
    Like s (compoundItems k elems i s)
      (if i = 0 then commas (elems.map (part k s)) else tail ", ".toList (elems.map (part k s))) := by
  induction elems generalizing i s with
  | nil => simp only [compoundItems, List.map_nil, tail, List.flatMap_nil, commas, join, ite_self]; exact Like.refl s
  | cons e rest ih =>
    rw [compoundItems]
    have h1 := like_if s (i > 0) ", ".toList
    generalize (if i > 0 then printString s ", ".toList else s) = s1 at h1 ⊢
    have h2 := like_if s1 (e.length > 1) "{ ".toList
    generalize (if e.length > 1 then printString s1 "{ ".toList else s1) = s2 at h2 ⊢
    have h3 := like_items k e 0 s2
    rw [if_pos rfl] at h3
    generalize listItems k e 0 s2 = s3 at h3 ⊢
    have h4 := like_if s3 (e.length > 1) " }".toList
    generalize (if e.length > 1 then printString s3 " }".toList else s3) = s4 at h4 ⊢
    have hp := (h2.trans h3).trans h4
    have ep : (if e.length > 1 then "{ ".toList else []) ++ commas (e.map (cell k s2)) ++ (if e.length > 1 then " }".toList else []) =
        part k s e := by
      have : e.map (cell k s2) = e.map (cell k s) := by
        apply List.map_congr_left; intro y _; exact (h1.trans h2).cell k y
      rw [this]
      unfold part braces
      split_ifs <;> simp
    rw [ep] at hp
    have h5 := h1.trans hp
    have h6 := h5.trans (ih (i + 1) s4)
    rw [if_neg (Nat.succ_ne_zero i)] at h6
    have e' : rest.map (part k s4) = rest.map (part k s) := by
      apply List.map_congr_left; intro y _
      unfold part
      have : y.map (cell k s4) = y.map (cell k s) := by
        apply List.map_congr_left; intro z _; exact h5.cell k z
      rw [this]
    rw [e'] at h6
    convert h6 using 1
    split_ifs with h0 h0' h0'
    · omega
    · simp [commas, join_cons]
    · simp [tail, List.append_assoc]
    · omega

theorem restore_like {s0 s s' : Stream} {t : List Char} (h : Like s s' t) (ho : s.out = s0.out) :
    restore s0 s' = { s0 with width := 0, out := s0.out ++ t } := by
  unfold restore; rw [h.out, ho]

/-! ## reading numbers back -/

theorem digitOf_digitChar (d : ℕ) (h : d < 10) : digitOf (Nat.digitChar d) = some d := by
  interval_cases d <;> decide

theorem read_digits (n : ℕ) (st : Option (Bool × ℕ)) (b : Bool) (hs : st = some (b, 0) ∨ (st = none ∧ b = false)) (rest : List Char) :
    readFrom st (Nat.toDigits 10 n ++ rest) = readFrom (some (b, n)) rest := by
  induction n using Nat.strong_induction_on generalizing rest with
  | _ n ih =>
    by_cases h : n < 10
    · rw [Nat.toDigits_of_lt_base h]
      show readFrom st (Nat.digitChar n :: rest) = _
      rw [readFrom.eq_def]
      simp only [digitOf_digitChar n h]
      rcases hs with rfl | ⟨rfl, rfl⟩
      · simp
      · rfl
    · rw [Nat.toDigits_of_base_le (by norm_num) (by omega), List.append_assoc, ih (n / 10) (by omega)]
      show readFrom _ (Nat.digitChar (n % 10) :: rest) = _
      rw [readFrom.eq_def]
      simp only [digitOf_digitChar (n % 10) (by omega)]
      congr 3
      omega

theorem read_sep (st : Option (Bool × ℕ)) (c : Char) (h : Separator c) (rest : List Char) :
    readFrom st (c :: rest) = signed st ++ readFrom none rest := by
  rw [readFrom.eq_def]
  simp only [h.1, if_neg h.2.1, if_neg h.2.2]

theorem read_seps (l : List Char) (h : ∀ c ∈ l, Separator c) (rest : List Char) : readFrom none (l ++ rest) = readFrom none rest := by
  induction l with
  | nil => rfl
  | cons c l ih =>
    rw [List.cons_append, read_sep none c (h c (by simp)), ih (fun c' h' => h c' (by simp [h']))]
    rfl

/-- The text of an integer, then something that ends it. -/
theorem read_integer (sg : Bool) (bits : ℕ) (f : Format) (hf : f.base = .dec) (z : ℤ) (rest : List Char) :
    ∃ st, signed st = [z] ∧ readFrom none (integerText sg bits f z ++ rest) = readFrom st rest := by
  unfold integerText
  rw [hf]
  dsimp only
  by_cases hz : z < 0
  · rw [if_pos hz]
    refine ⟨some (true, z.natAbs), ?_, ?_⟩
    · simp only [signed, List.cons.injEq, and_true]; omega
    · show readFrom none ('-' :: (Nat.toDigits 10 z.natAbs ++ rest)) = _
      rw [readFrom.eq_def]
      have : digitOf '-' = none := by decide
      simp only [this, if_true]
      rw [read_digits _ _ true (Or.inl rfl)]; rfl
  · rw [if_neg hz]
    refine ⟨some (false, z.natAbs), ?_, ?_⟩
    · simp only [signed, List.cons.injEq, and_true]; omega
    · split_ifs
      · show readFrom none ('+' :: (Nat.toDigits 10 z.natAbs ++ rest)) = _
        rw [readFrom.eq_def]
        have : digitOf '+' = none := by decide
        simp only [this]
        rw [if_neg (by decide), if_pos trivial, read_digits _ _ false (Or.inl rfl)]; rfl
      · exact read_digits _ _ false (Or.inr ⟨rfl, rfl⟩) rest

theorem read_cell (sg : Bool) (bits : ℕ) (hb : bits ≠ 128) (s : Stream) (hs : s.format.base = .dec) (hf : Separator s.fill) (z : ℤ)
    (rest : List Char) : ∃ st, signed st = [z] ∧ readFrom none (cell (integer sg bits) s z ++ rest) = readFrom st rest := by
  unfold cell atRight
  obtain ⟨b, hb'⟩ : ∃ b, (integer sg bits).text { s.format with adjust := .right } z = integerText sg b { s.format with adjust := .right } z := by
    by_cases h8 : bits = 8
    · exact ⟨32, by simp [integer, h8]⟩
    · exact ⟨bits, by simp [integer, h8, hb]⟩
  rw [hb']
  obtain ⟨st, h1, h2⟩ := read_integer sg b { s.format with adjust := .right } hs z rest
  refine ⟨st, h1, ?_⟩
  rw [List.append_assoc, read_seps _ (fun c hc => (List.eq_of_mem_replicate hc) ▸ hf), h2]

/-- The text, followed by a separator, is read as the numbers. -/
def Reads (t : List Char) (l : List ℤ) : Prop := ∀ c, Separator c → ∀ rest, readFrom none (t ++ c :: rest) = l ++ readFrom none rest

theorem reads_cell (sg : Bool) (bits : ℕ) (hb : bits ≠ 128) (s : Stream) (hs : s.format.base = .dec) (hf : Separator s.fill) (z : ℤ) :
    Reads (cell (integer sg bits) s z) [z] := by
  intro c hc rest
  obtain ⟨st, h1, h2⟩ := read_cell sg bits hb s hs hf z (c :: rest)
  rw [h2, read_sep st c hc, h1]

theorem reads_join {A : Type} (sep : List Char) (c0 : Char) (sep' : List Char) (he : sep = c0 :: sep') (hsep : ∀ c ∈ sep, Separator c)
    (f : A → List Char) (g : A → List ℤ) (L : List A) (h : ∀ a ∈ L, Reads (f a) (g a)) : Reads (join sep (L.map f)) (L.flatMap g) := by
  intro c hc rest
  induction L with
  | nil => simp only [List.map_nil, join, List.nil_append]; rw [read_sep none c hc]; rfl
  | cons z x ih =>
    cases x with
    | nil =>
      simp only [List.map_cons, List.map_nil, join, List.flatMap_cons, List.flatMap_nil, List.append_nil]
      exact h z (by simp) c hc rest
    | cons y x =>
      have ih := ih (fun a ha => h a (List.mem_cons_of_mem _ ha))
      rw [List.map_cons] at ih
      rw [List.map_cons, List.map_cons, join, List.append_assoc, List.append_assoc, List.flatMap_cons]
      nth_rw 1 [he]
      rw [List.cons_append, h z (by simp) c0 (hsep c0 (by simp [he])), read_seps sep' (fun c' h' => hsep c' (by simp [he, h'])), ih,
        List.append_assoc]

theorem sep_of (c : Char) (h : c = ' ' ∨ c = ',' ∨ c = '\n' ∨ c = '{' ∨ c = '}') : Separator c := by
  rcases h with rfl | rfl | rfl | rfl | rfl <;> exact ⟨by decide, by decide, by decide⟩

theorem reads_braces (t : List Char) (l : List ℤ) (h : Reads t l) : Reads (braces t) l := by
  intro c hc rest
  have e : braces t ++ c :: rest = ['{', ' '] ++ (t ++ ' ' :: '}' :: c :: rest) := by simp [braces]
  rw [e, read_seps _ (fun c hc => sep_of c (by simp at hc; tauto)), h ' ' (sep_of _ (Or.inl rfl)),
    read_sep none '}' (sep_of _ (by simp)), read_sep none c hc]
  rfl

theorem numbers_braces (t : List Char) (l : List ℤ) (h : Reads t l) : numbers (braces t) = l := by
  have e : braces t = ['{', ' '] ++ (t ++ ' ' :: ['}']) := by simp [braces]
  unfold numbers
  rw [e, read_seps _ (fun c hc => sep_of c (by simp at hc; tauto)), h ' ' (sep_of _ (Or.inl rfl)),
    read_sep none '}' (sep_of _ (by simp))]
  simp [readFrom, signed]

theorem reads_commas {A : Type} (f : A → List Char) (g : A → List ℤ) (L : List A) (h : ∀ a ∈ L, Reads (f a) (g a)) :
    Reads (commas (L.map f)) (L.flatMap g) :=
  reads_join _ ',' [' '] rfl (fun c hc => sep_of c (by simp at hc; tauto)) f g L h

theorem reads_lines {A : Type} (f : A → List Char) (g : A → List ℤ) (L : List A) (h : ∀ a ∈ L, Reads (f a) (g a)) :
    Reads (join ",\n  ".toList (L.map f)) (L.flatMap g) :=
  reads_join _ ',' ['\n', ' ', ' '] rfl (fun c hc => sep_of c (by simp at hc; tauto)) f g L h

end Verif.Proofs.Printing
