import Verif.Model.ThreadName
import Mathlib.Tactic.Common
/-! # Lemmas about names of threads -/
namespace Verif.Proofs.ThreadName
open Verif.Model.ThreadName

/-- The buffer after the name was copied, for a name without zero bytes. -/
theorem buffer (name : List UInt8) (hz : ∀ c ∈ name, c ≠ 0) (hl : name.length ≤ 256) :
    strncpy (List.replicate 256 none) name (min name.length 256) = name.map some ++ List.replicate (256 - name.length) none := by
  have h1 : min name.length 256 = name.length := Nat.min_eq_left hl
  have h2 : name.takeWhile (· ≠ 0) = name := by
    clear h1 hl
    induction name with
    | nil => rfl
    | cons c l ih =>
      have := ih fun d hd => hz d (by simp [hd])
      rw [List.takeWhile_cons, this]
      simp [hz c (by simp)]
  simp only [strncpy, h1, List.take_length, h2, Nat.sub_self, List.replicate_zero, List.append_nil, List.drop_replicate]

theorem readString_prefix (l : List UInt8) (r : List (Option UInt8)) (hz : ∀ c ∈ l, c ≠ 0) :
    readString (l.map some ++ r) = (readString r).map (l ++ ·) := by
  induction l with
  | nil => cases h : readString r <;> simp [h]
  | cons c l ih =>
    have hc := hz c (by simp)
    have := ih fun d hd => hz d (by simp [hd])
    show (if c = 0 then some [] else (readString (l.map some ++ r)).map (c :: ·)) = _
    rw [if_neg hc, this, Option.map_map]
    rfl

end Verif.Proofs.ThreadName
