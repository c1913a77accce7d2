import Verif.Spec.BuildDate
import Verif.Model.BuildDate
/-! Lemmas for C181. -/
namespace Verif.Proofs.BuildDate
open Verif.Spec.BuildDate Verif.Model.BuildDate

theorem digit (n : Nat) (h : n < 10) : (Nat.digitChar n).toNat = n + 48 := by
  have : ∀ n : Fin 10, (Nat.digitChar n.val).toNat = n.val + 48 := by decide
  exact this ⟨n, h⟩

theorem digit_ne (n : Nat) (h : n < 10) : ((Nat.digitChar n).toNat : Int) ≠ 32 := by
  rw [digit n h]; omega

theorem date_length (m : Moment) (h : m.Valid) : ∃ a b c x, monthName m.month = [a, b, c] ∧
    dateText m = [a, b, c, ' ', x, Nat.digitChar (m.day % 10), ' ', Nat.digitChar (m.year / 100 / 10),
      Nat.digitChar (m.year / 100 % 10), Nat.digitChar (m.year % 100 / 10), Nat.digitChar (m.year % 100 % 10)] ∧
    (m.day < 10 ∧ x = ' ' ∨ 10 ≤ m.day ∧ x = Nat.digitChar (m.day / 10)) := by
  obtain ⟨_, h1, h2, _⟩ := h
  have hm : ∃ a b c, monthName m.month = [a, b, c] := by
    have : m.month = 1 ∨ m.month = 2 ∨ m.month = 3 ∨ m.month = 4 ∨ m.month = 5 ∨ m.month = 6 ∨ m.month = 7 ∨ m.month = 8 ∨
      m.month = 9 ∨ m.month = 10 ∨ m.month = 11 ∨ m.month = 12 := by omega
    rcases this with e | e | e | e | e | e | e | e | e | e | e | e <;> rw [e] <;> exact ⟨_, _, _, rfl⟩
  obtain ⟨a, b, c, e⟩ := hm
  by_cases hd : m.day < 10
  · refine ⟨a, b, c, ' ', e, ?_, .inl ⟨hd, rfl⟩⟩
    simp only [dateText, e, hd, if_true, two, List.cons_append, List.nil_append]
    rw [Nat.mod_eq_of_lt hd]
  · refine ⟨a, b, c, Nat.digitChar (m.day / 10), e, ?_, .inr ⟨by omega, rfl⟩⟩
    simp only [dateText, e, hd, if_false, two, List.cons_append, List.nil_append]

theorem day_le (m : Moment) (h : m.Valid) : m.day ≤ 31 := by
  obtain ⟨_, _, _, _, h5, _⟩ := h
  have : daysIn m.year m.month ≤ 31 := by
    unfold daysIn; repeat' split
    all_goals omega
  omega

theorem year_eq (m : Moment) (h : m.Valid) : year (dateText m) = some (BitVec.ofNat 32 m.year) := by
  obtain ⟨a, b, c, x, _, e, _⟩ := date_length m h
  obtain ⟨hy, _⟩ := h
  rw [e]
  simp only [year, at?, List.getElem?_cons_succ, List.getElem?_cons_zero, Option.map_some, Option.pure_def, Option.bind_eq_bind,
    Option.bind_some]
  rw [digit _ (by omega), digit _ (by omega), digit _ (by omega), digit _ (by omega), ← BitVec.ofInt_natCast]
  congr 2
  omega

theorem month_eq (m : Moment) (h : m.Valid) : month (dateText m) = some (BitVec.ofNat 32 m.month) := by
  obtain ⟨a, b, c, x, e1, e, _⟩ := date_length m h
  obtain ⟨_, h1, h2, _⟩ := h
  have key : month (dateText m) = month (monthName m.month) := by
    rw [e, e1]
    simp only [month, monthHash, at?, List.getElem?_cons_succ, List.getElem?_cons_zero]
  rw [key]
  have : m.month = 1 ∨ m.month = 2 ∨ m.month = 3 ∨ m.month = 4 ∨ m.month = 5 ∨ m.month = 6 ∨ m.month = 7 ∨ m.month = 8 ∨
    m.month = 9 ∨ m.month = 10 ∨ m.month = 11 ∨ m.month = 12 := by omega
  rcases this with e | e | e | e | e | e | e | e | e | e | e | e <;> rw [e] <;> decide

theorem day_eq (m : Moment) (h : m.Valid) : day (dateText m) = some (BitVec.ofNat 32 m.day) := by
  obtain ⟨a, b, c, x, _, e, hx⟩ := date_length m h
  have hd := day_le m h
  rw [e]
  simp only [day, pair, at?, List.getElem?_cons_succ, List.getElem?_cons_zero, Option.map_some, Option.pure_def,
    Option.bind_eq_bind, Option.bind_some]
  rw [digit _ (by omega)]
  rcases hx with ⟨h1, rfl⟩ | ⟨h1, rfl⟩
  · rw [if_pos (by decide), ← BitVec.ofInt_natCast]
    congr 2
    omega
  · rw [if_neg (digit_ne _ (by omega)), digit _ (by omega), ← BitVec.ofInt_natCast]
    congr 2
    omega

theorem pair_two (l r : List Char) (n : Nat) (h : n < 100) : pair (l ++ (two n ++ r)) l.length = some (BitVec.ofNat 32 n) := by
  have e0 : (l ++ (two n ++ r))[l.length]? = some (Nat.digitChar (n / 10)) := by
    rw [List.getElem?_append_right (Nat.le_refl _)]; simp [two]
  have e1 : (l ++ (two n ++ r))[l.length + 1]? = some (Nat.digitChar (n % 10)) := by
    rw [List.getElem?_append_right (by omega)]; simp [two]
  simp only [pair, at?, e0, e1, Option.map_some, Option.pure_def, Option.bind_eq_bind, Option.bind_some]
  rw [if_neg (digit_ne _ (by omega)), digit _ (by omega), digit _ (by omega), ← BitVec.ofInt_natCast]
  congr 2
  omega

theorem hour_eq (m : Moment) (h : m.Valid) : hour (timeText m) = some (BitVec.ofNat 32 m.hour) := by
  obtain ⟨_, _, _, _, _, h6, h7, h8⟩ := h
  have := pair_two [] ([':'] ++ two m.minute ++ [':'] ++ two m.second) m.hour (by omega)
  simpa [hour, timeText] using this

theorem minute_eq (m : Moment) (h : m.Valid) : minute (timeText m) = some (BitVec.ofNat 32 m.minute) := by
  obtain ⟨_, _, _, _, _, h6, h7, h8⟩ := h
  have := pair_two (two m.hour ++ [':']) ([':'] ++ two m.second) m.minute (by omega)
  simpa [minute, timeText, two] using this

theorem second_eq (m : Moment) (h : m.Valid) : second (timeText m) = some (BitVec.ofNat 32 m.second) := by
  obtain ⟨_, _, _, _, _, h6, h7, h8⟩ := h
  have := pair_two (two m.hour ++ [':'] ++ two m.minute ++ [':']) [] m.second (by omega)
  simpa [second, timeText, two] using this

end Verif.Proofs.BuildDate
