import Verif.Model.TypeName
import Verif.Proofs.IntVector
import Mathlib.Tactic.Ring
import Mathlib.Tactic.Linarith
import Mathlib.Tactic.IntervalCases
import Mathlib.Tactic.Tauto
import Mathlib.Data.Nat.Digits.Defs

namespace Verif.Proofs.TypeName

open Verif.Spec.CInt Verif.Spec.TypeName Verif.Model.TypeName

/-! ## Tokens -/

/-- A character that ends a word. -/
def Stop (c : Char) : Prop := c ∈ symbols ∨ c = ' '

/-- The next text does not continue a word. -/
def Breaks (s : List Char) : Prop := s = [] ∨ ∃ c cs, s = c :: cs ∧ Stop c

theorem lexFrom_breaks (a : List Char) : ∀ (w s : List Char), Breaks s → lexFrom w (a ++ s) = lexFrom w a ++ lex s := by
  induction a with
  | nil =>
    intro w s h
    rcases h with rfl | ⟨c, cs, rfl, h⟩
    · simp [lex, lexFrom, flush]
    · rcases h with h | rfl
      · simp [lex, lexFrom, h, flush]
      · simp [lex, lexFrom, symbols, flush]
  | cons c a ih =>
    intro w s h
    simp only [List.cons_append, lexFrom]
    split_ifs
    · rw [ih _ _ h]; simp
    · rw [ih _ _ h]; simp
    · rw [ih _ _ h]

theorem lex_append (a s : List Char) (h : Breaks s) : lex (a ++ s) = lex a ++ lex s := lexFrom_breaks a [] s h

theorem lex_sym (c : Char) (hc : c ∈ symbols) (s : List Char) : lex (c :: s) = .sym c :: lex s := by simp [lex, lexFrom, hc, flush]

theorem lex_space (s : List Char) : lex (' ' :: s) = lex s := by simp [lex, lexFrom, symbols, flush]

/-- After a text that ends with a character that ends words. -/
theorem lexFrom_stopped (a : List Char) (c : Char) (hc : Stop c) : ∀ (w s : List Char),
    lexFrom w (a ++ c :: s) = lexFrom w (a ++ [c]) ++ lex s := by
  intro w s
  have h1 := lexFrom_breaks a w (c :: s) (Or.inr ⟨c, s, rfl, hc⟩)
  have h2 := lexFrom_breaks a w [c] (Or.inr ⟨c, [], rfl, hc⟩)
  rw [h1, h2, List.append_assoc]
  congr 1
  rcases hc with hc | rfl
  · simp [lex_sym c hc]; rfl
  · simp [lex_space]; rfl

theorem lex_stopped (a : List Char) (c : Char) (hc : Stop c) (s : List Char) : lex (a ++ c :: s) = lex (a ++ [c]) ++ lex s :=
  lexFrom_stopped a c hc [] s

theorem lexFrom_word (l : List Char) : ∀ w, (∀ c ∈ l, ¬ Stop c) → lexFrom w l = flush (w ++ l) := by
  induction l with
  | nil => intro w _; simp [lexFrom]
  | cons c l ih =>
    intro w h
    have hc := h c (by simp)
    unfold Stop at hc
    push Not at hc
    simp only [lexFrom]
    rw [if_neg hc.1, if_neg hc.2, ih _ (fun x hx => h x (by simp [hx]))]
    simp

/-- A word is one token. -/
theorem lex_word (l : List Char) (hl : l ≠ []) (h : ∀ c ∈ l, ¬ Stop c) : lex l = [.word l] := by
  unfold lex
  rw [lexFrom_word l [] h]
  simp [flush, hl]

/-! ## Numbers -/

/-- The digits, none for zero. -/
def digitsOf (m : ℕ) : List Char := if m = 0 then [] else Nat.toDigits 10 m

theorem digitsOf_step {m : ℕ} (h : m ≠ 0) : digitsOf m = digitsOf (m / 10) ++ [Nat.digitChar (m % 10)] := by
  unfold digitsOf
  rw [if_neg h]
  split_ifs with h2
  · have : m < 10 := by omega
    rw [Nat.toDigits_of_lt_base this, Nat.mod_eq_of_lt this]; rfl
  · rw [Nat.toDigits_of_base_le (by norm_num) (by omega)]

theorem digitChar_eq (m : ℕ) : digitChar m = Nat.digitChar (m % 10) := by
  unfold digitChar
  have h : ((48 : ℤ) + (m : ℤ).tmod 10).toNat = 48 + m % 10 := by
    rw [show ((m : ℤ).tmod 10) = ((m % 10 : ℕ) : ℤ) by
      rw [Int.tmod_eq_emod_of_nonneg (by omega)]; norm_cast]
    omega
  rw [h]
  have hm : m % 10 < 10 := Nat.mod_lt _ (by norm_num)
  generalize m % 10 = k at hm
  interval_cases k <;> rfl

theorem tdiv_nat (m : ℕ) : (m : ℤ).tdiv 10 = ((m / 10 : ℕ) : ℤ) := by
  rw [Int.tdiv_eq_ediv_of_nonneg (by omega)]; norm_cast

theorem countDigits_eq (m : ℕ) : ∀ len, countDigits m len = len + (digitsOf m).length := by
  induction m using Nat.strong_induction_on with
  | _ m ih =>
    intro len
    rw [countDigits]
    split_ifs with h
    · have : m = 0 := by exact_mod_cast h
      subst this
      simp [digitsOf]
    · have hm : m ≠ 0 := by rintro rfl; exact h rfl
      rw [tdiv_nat, ih (m / 10) (Nat.div_lt_self (by omega) (by norm_num)), digitsOf_step hm]
      simp; omega

theorem writeDigits_eq (m : ℕ) : ∀ (a b : List Char) (k : ℕ), a.length = k + (digitsOf m).length →
    writeDigits m (a ++ b) ((a.length : ℤ) - 1) = (a.take k ++ digitsOf m ++ b, (k : ℤ) - 1) := by
  induction m using Nat.strong_induction_on with
  | _ m ih =>
    intro a b k hk
    rw [writeDigits]
    split_ifs with h
    · have : m = 0 := by exact_mod_cast h
      subst this
      simp only [digitsOf, if_true, List.length_nil, Nat.add_zero] at hk ⊢
      rw [← hk]
      simp
    · have hm : m ≠ 0 := by rintro rfl; exact h rfl
      have hs := digitsOf_step hm
      obtain ⟨a', x, rfl⟩ : ∃ a' x, a = a' ++ [x] := by
        have : a ≠ [] := by
          rintro rfl
          rw [hs] at hk
          simp at hk
        exact ⟨a.dropLast, a.getLast this, (List.dropLast_append_getLast this).symm⟩
      have h1 : ((a' ++ [x] ++ b).set ((((a' ++ [x]).length : ℕ) : ℤ) - 1).toNat (digitChar m)) = a' ++ (digitChar m :: b) := by
        have : ((((a' ++ [x]).length : ℕ) : ℤ) - 1).toNat = a'.length := by simp
        rw [this]
        simp
      rw [h1, tdiv_nat, show (((a' ++ [x]).length : ℕ) : ℤ) - 1 - 1 = (a'.length : ℤ) - 1 by simp]
      have hk' : a'.length = k + (digitsOf (m / 10)).length := by
        rw [hs] at hk
        simp at hk
        omega
      rw [ih (m / 10) (Nat.div_lt_self (by omega) (by norm_num)) a' _ k hk', hs, digitChar_eq]
      congr 1
      rw [List.take_append_of_le_length (by omega)]
      simp

/-- The name of a number is the number in decimal, unless it is zero or the least of its type. -/
theorem intToStr_eq (t : Ty) (ht : 0 < t.bits) (n : ℤ) (h : t.Has n) (h0 : n ≠ 0) (hneg : n < 0 → t.Has (-n)) :
    intToStr t n = some (decimal n) := by
  have hlen : digitsOf n.natAbs = Nat.toDigits 10 n.natAbs := by
    unfold digitsOf
    rw [if_neg (by omega)]
  by_cases hn : n < 0
  · have hs : t.signed = true := by
      obtain ⟨a, _⟩ := h
      unfold Ty.lo at a
      by_contra hc
      rw [if_neg hc] at a
      omega
    have hv : negated t n = some ((n.natAbs : ℕ) : ℤ) := by
      unfold negated
      rw [IntVector.result_has (IntVector.promote_bits ht) (IntVector.promote_has ht (hneg hn))]
      simp only [Option.bind_eq_bind, Option.bind_some]
      rw [Proofs.CInt.conv_has ht (hneg hn)]
      congr 1
      omega
    unfold intToStr strLength
    simp only [h0, hs, hn, hv, if_false, if_true, and_self, Option.bind_eq_bind, Option.bind_some, countDigits_eq]
    have := writeDigits_eq n.natAbs (List.replicate (1 + (digitsOf n.natAbs).length) (Char.ofNat 0)) [] 1 (by simp)
    rw [List.append_nil, List.length_replicate] at this
    rw [this]
    simp [decimal, hn, hlen, List.replicate_add]
  · have hnn : n = ((n.natAbs : ℕ) : ℤ) := by omega
    unfold intToStr strLength
    simp only [h0, hn, and_false, if_false, Option.bind_eq_bind, Option.bind_some]
    have hc : countDigits n 0 = (digitsOf n.natAbs).length := by
      conv_lhs => rw [hnn]
      rw [countDigits_eq]; simp
    have := writeDigits_eq n.natAbs (List.replicate (0 + (digitsOf n.natAbs).length) (Char.ofNat 0)) [] 0 (by simp)
    rw [List.append_nil, List.length_replicate, ← hnn] at this
    rw [hc]
    simp only [Nat.zero_add] at this
    rw [this]
    simp [decimal, hn, hlen]

theorem digit_char (k : ℕ) (h : k < 10) : ¬ Stop (Nat.digitChar k) := by
  unfold Stop symbols
  interval_cases k <;> decide

theorem digits_not_stop (m : ℕ) : ∀ c ∈ Nat.toDigits 10 m, ¬ Stop c := by
  induction m using Nat.strong_induction_on with
  | _ m ih =>
    intro c hc
    by_cases h : m < 10
    · rw [Nat.toDigits_of_lt_base h] at hc
      simp at hc
      subst hc
      exact digit_char m h
    · rw [Nat.toDigits_of_base_le (by norm_num) (by omega)] at hc
      rcases List.mem_append.1 hc with hc | hc
      · exact ih (m / 10) (Nat.div_lt_self (by omega) (by norm_num)) c hc
      · simp at hc
        subst hc
        exact digit_char _ (Nat.mod_lt _ (by norm_num))

theorem digits_ne_nil (m : ℕ) : Nat.toDigits 10 m ≠ [] := by
  by_cases h : m < 10
  · rw [Nat.toDigits_of_lt_base h]; simp
  · rw [Nat.toDigits_of_base_le (by norm_num) (by omega)]; simp

theorem lex_decimal (z : ℤ) : lex (decimal z) = [.word (decimal z)] := by
  apply lex_word
  · unfold decimal
    simp
  · intro c hc
    unfold decimal at hc
    rcases List.mem_append.1 hc with hc | hc
    · split_ifs at hc
      · simp at hc
        subst hc
        unfold Stop symbols
        decide
      · simp at hc
    · exact digits_not_stop _ c hc

/-! ## Searching -/

theorem findFrom_first (a b : List Char) (c : Char) (h : c ∉ a) : ∀ i, findFrom i c (a ++ c :: b) = some (i + a.length) := by
  induction a with
  | nil => intro i; simp [findFrom]
  | cons x a ih =>
    intro i
    simp only [List.mem_cons, not_or] at h
    simp only [List.cons_append, findFrom]
    rw [if_neg (Ne.symm h.1), ih h.2]
    simp; omega

theorem rfindFrom_last (a b : List Char) (c : Char) (h : c ∉ b) : ∀ i ≤ b.length, rfindFrom (a ++ c :: b) c (a.length + 1 + i) = some a.length := by
  intro i
  induction i with
  | zero => intro _; simp [rfindFrom]
  | succ i ih =>
    intro hi
    rw [show a.length + 1 + (i + 1) = (a.length + 1 + i) + 1 by omega, rfindFrom, if_neg, ih (by omega)]
    intro hc
    rw [show a ++ c :: b = (a ++ [c]) ++ b by simp, List.getElem?_append_right (by simp)] at hc
    exact h (List.mem_of_getElem? hc)

theorem rfindFrom_none (s : List Char) (c : Char) (h : c ∉ s) : ∀ i, rfindFrom s c i = none := by
  intro i
  induction i with
  | zero => rfl
  | succ i ih =>
    rw [rfindFrom, if_neg, ih]
    intro hc
    exact h (List.mem_of_getElem? hc)

theorem trimRight_last (a b : List Char) (c : Char) (h : c ∉ b) : trimRightFromLast (a ++ c :: b) c = a := by
  unfold trimRightFromLast
  rw [show (a ++ c :: b).length = a.length + 1 + b.length by simp; omega, rfindFrom_last a b c h b.length le_rfl]
  simp

theorem trimRight_none (s : List Char) (c : Char) (h : c ∉ s) : trimRightFromLast s c = s := by
  unfold trimRightFromLast
  rw [rfindFrom_none s c h]

theorem trimLeft_first (a b : List Char) (c : Char) (h : c ∉ a) : trimLeftFromFirst (a ++ c :: b) c = b := by
  unfold trimLeftFromFirst
  rw [findFrom_first a b c h 0]
  simp

theorem startsWith_iff (s p : List Char) : startsWith s p = true ↔ p <+: s := by
  induction p generalizing s with
  | nil => simp [startsWith]
  | cons c p ih =>
    cases s with
    | nil => simp [startsWith]
    | cons d s =>
      simp only [startsWith, Bool.and_eq_true, beq_iff_eq, ih, List.cons_prefix_cons]
      exact ⟨fun ⟨a, b⟩ => ⟨a.symm, b⟩, fun ⟨a, b⟩ => ⟨a.symm, b⟩⟩

/-- What one step of a pass does. -/
def drop1 (s : List Char × Bool) (p : List Char) : List Char × Bool :=
  if startsWith s.1 p then (s.1.drop p.length, true) else s

/-- One prefix before another decides which it is. -/
theorem prefix_code : ∀ p ∈ prefixes, ∀ q ∈ prefixes, ∀ n ≤ max p.length q.length, p.take n = q.take n → n = min p.length q.length → p = q := by
  decide

theorem prefix_unique {p q s : List Char} (hp : p ∈ prefixes) (hq : q ∈ prefixes) (h1 : p <+: s) (h2 : q <+: s) : p = q := by
  obtain ⟨a, rfl⟩ := h1
  have h := List.prefix_iff_eq_take.1 h2
  refine prefix_code p hp q hq (min p.length q.length) (by omega) ?_ rfl
  rcases le_total p.length q.length with hl | hl
  · rw [min_eq_left hl]
    rw [h, List.take_take, min_eq_left hl, List.take_left']
    · simp
    · rfl
  · rw [min_eq_right hl]
    rw [List.take_length]
    rw [List.take_append_of_le_length hl] at h
    exact h.symm

/-- One pass over some of the prefixes leaves prefixes and the rest. -/
theorem pass_fold (x : List Char) (hx : ∀ p ∈ prefixes, ¬ p <+: x) : ∀ (l : List (List Char)), (∀ p ∈ l, p ∈ prefixes) →
    ∀ (ps : List (List Char)) (f : Bool), (∀ p ∈ ps, p ∈ prefixes) →
    ∃ (qs : List (List Char)) (f' : Bool), l.foldl drop1 (ps.flatten ++ x, f) = (qs.flatten ++ x, f') ∧ (∀ p ∈ qs, p ∈ prefixes) ∧ qs.length ≤ ps.length ∧
      (f = true → f' = true) ∧ (∀ p rest, ps = p :: rest → p ∈ l → qs.length < ps.length ∧ f' = true) ∧ (ps = [] → f' = f) := by
  intro l
  induction l with
  | nil => intro _ ps f h; exact ⟨ps, f, rfl, h, le_rfl, id, by simp, fun _ => rfl⟩
  | cons p l ih =>
    intro hl ps f h
    have hpp := hl p (by simp)
    simp only [List.foldl_cons]
    cases ps with
    | nil =>
      have hd : drop1 (([] : List (List Char)).flatten ++ x, f) p = (([] : List (List Char)).flatten ++ x, f) := by
        unfold drop1
        rw [if_neg]
        simp only [List.flatten_nil, List.nil_append, startsWith_iff]
        exact hx p hpp
      rw [hd]
      obtain ⟨qs, f', h1, h2, h3, h4, h5, h6⟩ := ih (fun q hq => hl q (by simp [hq])) [] f (by simp)
      exact ⟨qs, f', h1, h2, h3, h4, by simp, h6⟩
    | cons q ps =>
      have hq := h q (by simp)
      by_cases hpq : p = q
      · subst hpq
        have hd : drop1 ((p :: ps).flatten ++ x, f) p = (ps.flatten ++ x, true) := by
          unfold drop1
          rw [if_pos]
          · simp
          · simp [startsWith_iff]
        rw [hd]
        obtain ⟨qs, f', h1, h2, h3, h4, h5, h6⟩ := ih (fun q hq => hl q (by simp [hq])) ps true (fun q hq => h q (by simp [hq]))
        refine ⟨qs, f', h1, h2, by simp; omega, fun _ => h4 rfl, fun _ _ _ _ => ⟨by simp; omega, h4 rfl⟩, by simp⟩
      · have hd : drop1 ((q :: ps).flatten ++ x, f) p = ((q :: ps).flatten ++ x, f) := by
          unfold drop1
          rw [if_neg]
          rw [startsWith_iff]
          intro hc
          exact hpq (prefix_unique hpp hq hc (by simp))
        rw [hd]
        obtain ⟨qs, f', h1, h2, h3, h4, h5, h6⟩ := ih (fun q hq => hl q (by simp [hq])) (q :: ps) f h
        refine ⟨qs, f', h1, h2, h3, h4, ?_, by simp⟩
        intro p' rest he hm
        obtain ⟨rfl, rfl⟩ := List.cons.inj he
        rcases List.mem_cons.1 hm with hm | hm
        · exact absurd hm.symm hpq
        · exact h5 _ _ rfl hm

/-- The prefixes are removed, and nothing else is. -/
theorem removePrefixes_eq (x : List Char) (hx : ∀ p ∈ prefixes, ¬ p <+: x) : ∀ (n : ℕ) (ps : List (List Char)), (∀ p ∈ ps, p ∈ prefixes) →
    ps.length ≤ n → removePrefixes n (ps.flatten ++ x) = x := by
  intro n
  induction n with
  | zero =>
    intro ps h hn
    have : ps = [] := List.length_eq_zero_iff.1 (by omega)
    subst this
    simp [removePrefixes]
  | succ n ih =>
    intro ps h hn
    obtain ⟨qs, f', h1, h2, h3, h4, h5, h6⟩ := pass_fold x hx prefixes (fun _ h => h) ps false h
    have hp : pass (ps.flatten ++ x) = (qs.flatten ++ x, f') := h1
    rw [removePrefixes, hp]
    cases ps with
    | nil =>
      have := h6 rfl
      subst this
      simp
    | cons p ps =>
      obtain ⟨h7, h8⟩ := h5 p ps rfl (h p (by simp))
      rw [if_pos h8]
      exact ih qs h2 (by simp at hn h7; omega)

theorem flatten_length (ps : List (List Char)) (h : ∀ p ∈ ps, p ∈ prefixes) : ps.length ≤ ps.flatten.length := by
  induction ps with
  | nil => simp
  | cons p ps ih =>
    have h1 := ih (fun q hq => h q (by simp [hq]))
    have h2 : ∀ p ∈ prefixes, 1 ≤ p.length := by decide
    have := h2 p (h p (by simp))
    rw [List.flatten_cons, List.length_append, List.length_cons]
    omega

/-! ## Names and tokens -/

theorem lex_at_sym (a s : List Char) (c : Char) (hc : c ∈ symbols) : lex (a ++ c :: s) = lex a ++ .sym c :: lex s := by
  rw [lex_append a (c :: s) (Or.inr ⟨c, s, rfl, Or.inl hc⟩), lex_sym c hc]

theorem lex_at_space (a s : List Char) : lex (a ++ ' ' :: s) = lex a ++ lex s := by
  rw [lex_append a (' ' :: s) (Or.inr ⟨' ', s, rfl, Or.inr rfl⟩), lex_space]

theorem lex_comma (a s : List Char) : lex (a ++ chars! ", " ++ s) = lex a ++ .sym ',' :: lex s := by
  rw [show a ++ chars! ", " ++ s = a ++ ',' :: (' ' :: s) by simp, lex_at_sym a _ ',' (by decide), lex_space]

theorem lex_list : ∀ (k : ℕ) (l : List (List Char)), l.length ≤ k → lex (list l) = commas (l.map lex) := by
  intro k
  induction k with
  | zero =>
    intro l h
    have : l = [] := List.length_eq_zero_iff.1 (by omega)
    subst this
    simp [list, commas, lex, lexFrom, flush]
  | succ k ih =>
    intro l h
    match l, h with
    | [], _ => simp [list, commas, lex, lexFrom, flush]
    | [t], _ => simp [list, commas]
    | [t, u], _ =>
      simp only [list, List.map_cons, List.map_nil, commas]
      exact lex_comma t u
    | t :: u :: v :: w, h =>
      rw [list, lex_comma, lex_comma, ih (v :: w) (by simp at h ⊢; omega)]
      · simp [commas]
      · simp

theorem commas_append : ∀ (a b : List (List Token)), a ≠ [] → b ≠ [] → commas (a ++ b) = commas a ++ .sym ',' :: commas b := by
  intro a
  induction a with
  | nil => intro b h; exact absurd rfl h
  | cons x a ih =>
    intro b _ hb
    cases a with
    | nil =>
      obtain ⟨y, b, rfl⟩ := List.exists_cons_of_ne_nil hb
      simp [commas]
    | cons y a =>
      simp only [List.cons_append, commas]
      rw [← List.cons_append, ih b (by simp) hb]
      simp

theorem lex_nil : lex [] = [] := rfl


theorem w_const : lex ['c', 'o', 'n', 's', 't'] = [.word ['c', 'o', 'n', 's', 't']] := rfl
theorem w_volatile : lex ['v', 'o', 'l', 'a', 't', 'i', 'l', 'e'] = [.word ['v', 'o', 'l', 'a', 't', 'i', 'l', 'e']] := rfl
theorem w_ellipsis : lex ['.', '.', '.'] = [.word ['.', '.', '.']] := rfl
theorem w_noexcept : lex [' ', 'n', 'o', 'e', 'x', 'c', 'e', 'p', 't'] = [.word ['n', 'o', 'e', 'x', 'c', 'e', 'p', 't']] := rfl

theorem lex_qualifiers (cv : CV) (s : List Char) : lex (qualifiers cv ++ s) = cvTokens cv ++ lex s := by
  obtain ⟨c, v⟩ := cv
  cases c <;> cases v
  · simp [qualifiers, cvTokens]
  · simp only [qualifiers, cvTokens, if_true, Bool.false_eq_true, if_false, List.nil_append]
    rw [← w_volatile]
    exact lex_at_space ['v', 'o', 'l', 'a', 't', 'i', 'l', 'e'] s
  · simp only [qualifiers, cvTokens, if_true, Bool.false_eq_true, if_false, List.append_nil]
    rw [← w_const]
    exact lex_at_space ['c', 'o', 'n', 's', 't'] s
  · simp only [qualifiers, cvTokens, if_true]
    rw [← w_const, ← w_volatile, List.append_assoc, ← lex_at_space, ← lex_at_space]
    rfl

theorem lex_pointer (cv : CV) (a : List Char) : lex (a ++ pointerSuffix cv) = lex a ++ .sym '*' :: cvTokens cv := by
  obtain ⟨c, v⟩ := cv
  cases c <;> cases v <;> simp only [pointerSuffix, cvTokens, if_true,
    Bool.false_eq_true, if_false, List.nil_append, List.append_nil] <;> rw [lex_at_sym a _ '*' (by decide)]
  · rfl
  · rw [← w_volatile, lex_space]
  · rw [← w_const, lex_space]
  · rw [← w_const, ← w_volatile, ← lex_at_space, lex_space]; rfl

theorem lex_functionPointer (cv : CV) (a s : List Char) :
    lex (a ++ functionPointer cv ++ s) = lex a ++ (.sym '(' :: .sym '*' :: cvTokens cv ++ [.sym ')', .sym '(']) ++ lex s := by
  obtain ⟨c, v⟩ := cv
  have tail : ∀ w, lex (w ++ ')' :: '(' :: s) = lex w ++ .sym ')' :: .sym '(' :: lex s := fun w => by
    rw [lex_at_sym _ _ ')' (by decide), lex_sym '(' (by decide)]
  have head : ∀ w, lex (a ++ '(' :: '*' :: w) = lex a ++ .sym '(' :: .sym '*' :: lex w := fun w => by
    rw [lex_at_sym _ _ '(' (by decide), lex_sym '*' (by decide)]
  rw [List.append_assoc]
  cases c <;> cases v <;> simp only [functionPointer, cvTokens, if_true,
    Bool.false_eq_true, if_false, List.nil_append, List.append_nil, List.cons_append] <;> rw [head]
  · have := tail []
    rw [List.nil_append] at this
    rw [this, lex_nil]
    simp
  · have := tail ['v', 'o', 'l', 'a', 't', 'i', 'l', 'e']
    rw [w_volatile] at this
    simp only [List.cons_append, List.nil_append] at this
    rw [this]
    simp
  · have := tail ['c', 'o', 'n', 's', 't']
    rw [w_const] at this
    simp only [List.cons_append, List.nil_append] at this
    rw [this]
    simp
  · have := tail (['c', 'o', 'n', 's', 't'] ++ ' ' :: ['v', 'o', 'l', 'a', 't', 'i', 'l', 'e'])
    rw [lex_at_space, w_const, w_volatile] at this
    simp only [List.cons_append, List.nil_append] at this
    rw [this]
    simp

theorem lex_functionReference (a s : List Char) :
    lex (a ++ chars! "(&)(" ++ s) = lex a ++ [.sym '(', .sym '&', .sym ')', .sym '('] ++ lex s := by
  rw [List.append_assoc]
  simp only [List.cons_append, List.nil_append]
  rw [lex_at_sym a _ '(' (by decide), lex_sym '&' (by decide), lex_sym ')' (by decide), lex_sym '(' (by decide)]
  simp

/-- The parameters in parentheses and `noexcept`, as tokens. -/
def tailTokens (ps : List (List Token)) (variadic noexc : Bool) : List Token :=
  commas (ps ++ ellipsis variadic) ++ .sym ')' :: if noexc then [.word chars! "noexcept"] else []

theorem lex_close (l : List Char) (noexc : Bool) :
    lex (l ++ chars! ")" ++ if noexc then chars! " noexcept" else []) =
      lex l ++ .sym ')' :: if noexc then [.word chars! "noexcept"] else [] := by
  rw [List.append_assoc]
  simp only [List.cons_append, List.nil_append]
  rw [lex_at_sym l _ ')' (by decide)]
  cases noexc
  · rfl
  · simp only [if_true]
    simp only [w_noexcept]

theorem lex_function (r : List Char) (ps : List (List Char)) (variadic noexc : Bool) :
    lex (functionName r ps variadic noexc) = lex r ++ .sym '(' :: tailTokens (ps.map lex) variadic noexc := by
  unfold functionName tailTokens
  cases variadic with
  | false =>
    simp only [ellipsis, Bool.false_eq_true, if_false, List.append_nil]
    rw [lex_close, show r ++ chars! "(" ++ list ps = r ++ '(' :: list ps by simp, lex_at_sym r _ '(' (by decide), lex_list _ ps le_rfl]
    simp
  | true =>
    cases ps with
    | nil =>
      simp only [ellipsis, if_true, List.map_nil, List.nil_append, commas]
      rw [show r ++ chars! "(...)" = (r ++ '(' :: chars! "...") ++ chars! ")" by simp, lex_close, lex_at_sym r _ '(' (by decide),
        w_ellipsis]
      simp
    | cons p ps =>
      simp only [ellipsis, if_true]
      rw [commas_append _ _ (by simp) (by simp), show r ++ chars! "(" ++ list (p :: ps) ++ chars! ", ...)" =
        (r ++ '(' :: (list (p :: ps) ++ chars! ", " ++ chars! "...")) ++ chars! ")" by simp,
        lex_close, lex_at_sym r _ '(' (by decide), lex_comma, lex_list _ _ le_rfl,
        w_ellipsis]
      simp [commas]

/-- Pointers and references to functions, if there are no parameters before an ellipsis. -/
theorem lex_indirect (open' : List Char) (toks : List Token) (ho : ∀ a s, lex (a ++ open' ++ s) = lex a ++ toks ++ lex s) (r : List Char)
    (ps : List (List Char)) (variadic noexc : Bool) (h : variadic = true → ps = []) :
    lex (functionIndirect open' r ps variadic noexc) = lex r ++ toks ++ tailTokens (ps.map lex) variadic noexc := by
  unfold functionIndirect tailTokens
  cases variadic with
  | false =>
    simp only [ellipsis, Bool.false_eq_true, if_false, List.append_nil]
    rw [lex_close, ho, lex_list _ ps le_rfl]
    simp
  | true =>
    have := h rfl
    subst this
    simp only [ellipsis, if_true, List.map_nil, List.nil_append, commas]
    rw [show r ++ open' ++ chars! "...)" = (r ++ open' ++ chars! "...") ++ chars! ")" by simp, lex_close, ho,
      w_ellipsis]
    simp

theorem lex_extent (n : Option ℕ) (hn : ∀ k, n = some k → 0 < k ∧ k < 2 ^ 64) :
    ∃ e, extentName n = some e ∧ (∀ a, lex (a ++ e) = lex a ++ extent n) := by
  cases n with
  | none =>
    refine ⟨_, rfl, fun a => ?_⟩
    rw [lex_at_sym a _ '[' (by decide)]; rfl
  | some k =>
    obtain ⟨h1, h2⟩ := hn k rfl
    have h := intToStr_eq ⟨64, false⟩ (by decide) (k : ℤ) ⟨by show (0 : ℤ) ≤ k; omega, by show (k : ℤ) ≤ 2 ^ 64 - 1; omega⟩ (by omega) (by omega)
    refine ⟨chars! "[" ++ decimal k ++ chars! "]", ?_, fun a => ?_⟩
    · simp only [extentName, h]
      rfl
    · rw [show a ++ (chars! "[" ++ decimal k ++ chars! "]") = a ++ '[' :: (decimal k ++ ']' :: []) by simp, lex_at_sym a _ '[' (by decide),
        lex_at_sym _ _ ']' (by decide), lex_decimal]
      rfl

theorem valueNames_eq (values : List (Ty × ℤ))
    (h : ∀ v ∈ values, 0 < v.1.bits ∧ v.1.Has v.2 ∧ v.2 ≠ 0 ∧ (v.2 < 0 → v.1.Has (-v.2))) :
    valueNames values = some (values.map fun v => decimal v.2) := by
  induction values with
  | nil => rfl
  | cons v vs ih =>
    obtain ⟨h1, h2, h3, h4⟩ := h v (by simp)
    simp only [valueNames, intToStr_eq v.1 h1 v.2 h2 h3 h4, ih (fun w hw => h w (by simp [hw])), List.map_cons]
    rfl

theorem lex_inst (template inner : List Char) (hi : '<' ∉ inner) (types values : List (List Char)) (h : values = [] ∨ types.length ≤ 3) :
    lex (instName template inner types values) = lex template ++ .sym '<' :: commas (types.map lex ++ values.map lex) ++ [.sym '>'] := by
  have hb : trimRightFromLast (template ++ chars! "<" ++ inner ++ chars! ">") '<' = template := by
    rw [show template ++ chars! "<" ++ inner ++ chars! ">" = template ++ '<' :: (inner ++ chars! ">") by simp]
    apply trimRight_last
    simp only [List.mem_append, not_or]
    exact ⟨hi, by decide⟩
  have key : ∀ s, lex (template ++ chars! "<" ++ s ++ chars! ">") = lex template ++ .sym '<' :: lex s ++ [.sym '>'] := by
    intro s
    rw [show template ++ chars! "<" ++ s ++ chars! ">" = template ++ '<' :: (s ++ '>' :: []) by simp, lex_at_sym _ _ '<' (by decide),
      lex_at_sym _ _ '>' (by decide)]
    simp [lex_nil]
  unfold instName
  simp only [hb]
  have two : ∀ (us vs : List (List Char)), us ≠ [] → vs ≠ [] →
      lex (template ++ chars! "<" ++ list us ++ chars! ", " ++ list vs ++ chars! ">") =
        lex template ++ .sym '<' :: commas (us.map lex ++ vs.map lex) ++ [.sym '>'] := by
    intro us vs hu hv
    rw [show template ++ chars! "<" ++ list us ++ chars! ", " ++ list vs ++ chars! ">" =
      template ++ chars! "<" ++ (list us ++ chars! ", " ++ list vs) ++ chars! ">" by simp, key, lex_comma, lex_list _ _ le_rfl, lex_list _ _ le_rfl,
      commas_append _ _ (by simpa using hu) (by simpa using hv)]
  match types, values, h with
  | types, [], _ => simp only [key, lex_list _ types le_rfl, List.map_nil, List.append_nil]
  | [], v :: vs, _ => simp only [key, lex_list _ (v :: vs) le_rfl, List.map_nil, List.nil_append]
  | [u], v :: vs, _ => exact two [u] (v :: vs) (by simp) (by simp)
  | [u0, u1], v :: vs, _ => exact two [u0, u1] (v :: vs) (by simp) (by simp)
  | [u0, u1, u2], v :: vs, _ => exact two [u0, u1, u2] (v :: vs) (by simp) (by simp)
  | _ :: _ :: _ :: _ :: _, v :: vs, h => simp at h

end Verif.Proofs.TypeName
