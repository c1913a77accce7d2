import Verif.Proofs.BuildDate
/-! C181 (the moment of compilation). -/
namespace Verif.Props.BuildDate
open Verif.Spec.BuildDate Verif.Proofs.BuildDate
open Verif.Model.BuildDate (Build build)

/-- the constants hold the numbers of a moment -/
def Names (b : Build) (m : Moment) : Prop :=
  b.year.toNat = m.year ∧ b.month.toNat = m.month ∧ b.day.toNat = m.day ∧ b.hour.toNat = m.hour ∧ b.minute.toNat = m.minute ∧
    b.second.toNat = m.second

theorem build_eq (m : Moment) (h : m.Valid) : build (dateText m) (timeText m) =
    if 2021 ≤ m.year then some ⟨BitVec.ofNat 32 m.year, BitVec.ofNat 32 m.month, BitVec.ofNat 32 m.day, BitVec.ofNat 32 m.hour,
      BitVec.ofNat 32 m.minute, BitVec.ofNat 32 m.second⟩ else none := by
  have hd := day_le m h
  unfold build
  rw [year_eq m h, month_eq m h, day_eq m h, hour_eq m h, minute_eq m h, second_eq m h]
  obtain ⟨hy, h1, h2, h3, _, h6, h7, h8⟩ := h
  simp only [Option.pure_def, Option.bind_eq_bind, Option.bind_some, guard, ge_iff_le, BitVec.le_def, BitVec.toNat_ofNat,
    Nat.reducePow, Nat.reduceMod]
  rw [Nat.mod_eq_of_lt (by omega : m.year < 4294967296), Nat.mod_eq_of_lt (by omega : m.month < 4294967296),
    Nat.mod_eq_of_lt (by omega : m.day < 4294967296), Nat.mod_eq_of_lt (by omega : m.hour < 4294967296),
    Nat.mod_eq_of_lt (by omega : m.minute < 4294967296), Nat.mod_eq_of_lt (by omega : m.second < 4294967296)]
  by_cases hy2 : 2021 ≤ m.year
  · simp [hy2, h1, h2, h3, hd, h6, h7, h8]
  · simp [hy2]

/-- C181: compiled at any moment of the years 2021 to 9999, leap days and leap seconds included, the header compiles and its
constants are the year, the month, the day, the hour, the minute and the second of that moment. -/
theorem C181_build_moment (m : Moment) (h : m.Valid) (hy : 2021 ≤ m.year) :
    ∃ b, build (dateText m) (timeText m) = some b ∧ Names b m := by
  refine ⟨_, by rw [build_eq m h, if_pos hy], ?_⟩
  have hd := day_le m h
  obtain ⟨h0, h1, h2, h3, _, h6, h7, h8⟩ := h
  simp only [Names, BitVec.toNat_ofNat, Nat.reducePow]
  omega

/-- C181: a moment is never misread: where the header compiles, whatever the year, the constants are those of the moment, and
it does not compile in the years before 2021. -/
theorem C181_build_never_wrong (m : Moment) (h : m.Valid) :
    (∀ b, build (dateText m) (timeText m) = some b → Names b m) ∧ (m.year < 2021 → build (dateText m) (timeText m) = none) := by
  refine ⟨fun b hb => ?_, fun hy => by rw [build_eq m h, if_neg (by omega)]⟩
  by_cases hy : 2021 ≤ m.year
  · obtain ⟨b', e, hn⟩ := C181_build_moment m h hy
    rw [hb] at e
    exact Option.some.inj e ▸ hn
  · rw [build_eq m h, if_neg hy] at hb
    cases hb

/-- C181: different moments give different constants. -/
theorem C181_build_injective (m n : Moment) (hm : m.Valid) (hn : n.Valid) (b : Build)
    (em : build (dateText m) (timeText m) = some b) (en : build (dateText n) (timeText n) = some b) : m = n := by
  obtain ⟨a1, a2, a3, a4, a5, a6⟩ := (C181_build_never_wrong m hm).1 b em
  obtain ⟨b1, b2, b3, b4, b5, b6⟩ := (C181_build_never_wrong n hn).1 b en
  cases m; cases n
  simp only [Moment.mk.injEq]
  exact ⟨a1.symm.trans b1, a2.symm.trans b2, a3.symm.trans b3, a4.symm.trans b4, a5.symm.trans b5, a6.symm.trans b6⟩

/-- C181: where the compiler knows no date or no time, the header does not compile: no constants are invented. -/
theorem C181_build_unknown (s : List Char) : build unknownDate s = none ∧
    ∀ m : Moment, m.Valid → build (dateText m) unknownTime = none := by
  refine ⟨?_, fun m h => ?_⟩
  · have : Verif.Model.BuildDate.month unknownDate = some 0 := by decide
    unfold build
    rw [this]
    cases Verif.Model.BuildDate.year unknownDate <;> simp [guard]
  · have hh : Verif.Model.BuildDate.hour unknownTime = some 165 := by decide
    unfold build
    rw [year_eq m h, month_eq m h, day_eq m h, hh]
    simp [guard]

/-- the last leap second on a leap day of the far future, and a one-digit day -/
example : (⟨9996, 2, 29, 23, 59, 60⟩ : Moment).Valid ∧
    dateText ⟨2026, 9, 7, 4, 5, 6⟩ = "Sep  7 2026".toList ∧ timeText ⟨2026, 9, 7, 4, 5, 6⟩ = "04:05:06".toList ∧
    build "Sep  7 2026".toList "04:05:06".toList = some ⟨2026, 9, 7, 4, 5, 6⟩ ∧
    build "Jan  1 1970".toList "00:00:00".toList = none := by
  refine ⟨?_, ?_, ?_, ?_, ?_⟩
  · unfold Moment.Valid; decide
  all_goals decide

end Verif.Props.BuildDate
