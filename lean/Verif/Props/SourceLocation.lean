import Verif.Proofs.SourceLocation
/-! # Source locations -/
namespace Verif.Props.SourceLocation
open Verif.Model.SourceLocation Verif.Proofs.SourceLocation

/-- C173: a source location keeps what the compiler says, and the tail of the file name is what follows the last slash or backslash: it has none itself,
and what comes before it is empty or ends with one. Nothing outside of the string is read. -/
theorem C173_tail (line column : UInt32) (file function : List UInt8) (hz : ∀ c ∈ file, c ≠ 0) :
    ∃ loc dir name, current line column (file ++ [0]) function = some loc ∧ loc.line = line ∧ loc.column = column ∧ loc.file = file ++ [0] ∧
      loc.function = function ∧ file = dir ++ name ∧ loc.fileTail = name ++ [0] ∧ (∀ c ∈ name, c ≠ 47 ∧ c ≠ 92) ∧
      (dir = [] ∨ dir.getLast? = some 47 ∨ dir.getLast? = some 92) := by
  have hl := length_text file [] hz
  have key : ∀ i, tail (file ++ [0]) = some i → current line column (file ++ [0]) function =
      some ⟨line, column, file ++ [0], function, (file ++ [0]).drop i⟩ := by
    intro i h
    unfold current
    rw [h]
    rfl
  rcases slash_spec (file ++ [0]) file.length (by simp) with ⟨h1, h2⟩ | ⟨i, c, h1, h2, h3, h4, h5⟩
  · have ht : tail (file ++ [0]) = some 0 := by
      unfold tail
      rw [hl]
      show (do
        let s ← slash (file ++ [0]) file.length
        match s with
        | some i => some (i + 1)
        | none => some 0) = _
      rw [h1]
      rfl
    refine ⟨_, [], file, key 0 ht, rfl, rfl, rfl, rfl, rfl, rfl, ?_, .inl rfl⟩
    rwa [List.take_left' rfl] at h2
  · have ht : tail (file ++ [0]) = some (i + 1) := by
      unfold tail
      rw [hl]
      show (do
        let s ← slash (file ++ [0]) file.length
        match s with
        | some i => some (i + 1)
        | none => some 0) = _
      rw [h1]
      rfl
    refine ⟨_, file.take (i + 1), file.drop (i + 1), key _ ht, rfl, rfl, rfl, rfl, (List.take_append_drop _ _).symm, ?_, ?_, .inr ?_⟩
    · exact List.drop_append_of_le_length (by omega)
    · rwa [List.take_left' rfl] at h5
    · have : (file.take (i + 1)).getLast? = some c := by
        rw [List.getElem?_append_left h2] at h3
        rw [List.getLast?_take]
        simp [h3]
      rw [this]
      rcases h4 with rfl | rfl
      · exact .inl rfl
      · exact .inr rfl

/-- `src/a.c`: the tail is `a.c`. -/
example : tail [115, 114, 99, 47, 97, 46, 99, 0] = some 4 := by decide +kernel

end Verif.Props.SourceLocation
