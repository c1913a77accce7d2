import Verif.Model.SourceLocation
import Mathlib.Tactic.Common
/-! # Lemmas about source locations -/
namespace Verif.Proofs.SourceLocation
open Verif.Model.SourceLocation

theorem length_text (text : List UInt8) (rest : List UInt8) (hz : ∀ c ∈ text, c ≠ 0) : length (text ++ 0 :: rest) = some text.length := by
  induction text with
  | nil => rfl
  | cons c l ih =>
    have hc := hz c (by simp)
    show (if c ≠ 0 then (length (l ++ 0 :: rest)).map (· + 1) else some 0) = _
    rw [if_pos hc, ih fun d hd => hz d (by simp [hd])]
    rfl

theorem slash_spec (path : List UInt8) (n : ℕ) (hn : n ≤ path.length) :
    (slash path n = some none ∧ ∀ c ∈ path.take n, c ≠ 47 ∧ c ≠ 92) ∨
    ∃ i c, slash path n = some (some i) ∧ i < n ∧ path[i]? = some c ∧ (c = 47 ∨ c = 92) ∧ ∀ d ∈ (path.take n).drop (i + 1), d ≠ 47 ∧ d ≠ 92 := by
  induction n with
  | zero => exact .inl ⟨rfl, by simp⟩
  | succ n ih =>
    have hg : path[n]? = some (path[n]'(by omega)) := List.getElem?_eq_getElem _
    have ht : path.take (n + 1) = path.take n ++ [path[n]'(by omega)] := by rw [List.take_succ_eq_append_getElem (by omega)]
    generalize path[n]'(by omega) = c at hg ht
    have hs : slash path (n + 1) = if c = 92 ∨ c = 47 then some (some n) else slash path n := by
      show (do
        let c ← path[n]?
        if c = 92 ∨ c = 47 then some (some n) else slash path n) = _
      rw [hg]
      rfl
    by_cases hc : c = 92 ∨ c = 47
    · right
      refine ⟨n, c, by rw [hs, if_pos hc], by omega, hg, hc.symm, ?_⟩
      rw [List.drop_of_length_le (by rw [List.length_take]; exact Nat.min_le_left _ _)]
      simp
    · rw [hs, if_neg hc]
      have hc' : c ≠ 47 ∧ c ≠ 92 := ⟨fun h => hc (.inr h), fun h => hc (.inl h)⟩
      rcases ih (by omega) with ⟨h1, h2⟩ | ⟨i, d, h1, h2, h3, h4, h5⟩
      · refine .inl ⟨h1, ?_⟩
        intro d hd
        rw [ht] at hd
        rcases List.mem_append.1 hd with hd | hd
        · exact h2 d hd
        · obtain rfl : d = c := by simpa using hd
          exact hc'
      · refine .inr ⟨i, d, h1, by omega, h3, h4, ?_⟩
        intro e he
        rw [ht, List.drop_append_of_le_length (by rw [List.length_take]; omega)] at he
        rcases List.mem_append.1 he with he | he
        · exact h5 e he
        · obtain rfl : e = c := by simpa using he
          exact hc'

end Verif.Proofs.SourceLocation
