/-! Generic list helpers. -/
namespace Verif.Proofs

/-- induction on a list from the right -/
theorem snoc_induction {α : Type u} {P : List α → Prop} (nil : P []) (snoc : ∀ l a, P l → P (l ++ [a])) :
    ∀ l, P l := by
  intro l
  have h : ∀ r : List α, P r.reverse := by
    intro r
    induction r with
    | nil => exact nil
    | cons a r ih => rw [List.reverse_cons]; exact snoc _ _ ih
  simpa using h l.reverse

end Verif.Proofs
