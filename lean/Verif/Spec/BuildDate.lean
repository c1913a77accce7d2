/-! Specification for C181: the dates and times a compiler writes into `__DATE__` and `__TIME__` ([cpp.predefined]: the
names of the months are those `asctime` makes, a day below ten has a space before it). -/
namespace Verif.Spec.BuildDate

/-- a moment at which a translation unit is compiled; a second of 60 is a leap second -/
structure Moment where
  year : Nat
  month : Nat
  day : Nat
  hour : Nat
  minute : Nat
  second : Nat
  deriving DecidableEq, Repr

/-- the number of days of a month of the Gregorian calendar -/
def daysIn (year month : Nat) : Nat :=
  if month = 2 then (if year % 4 = 0 ∧ (year % 100 ≠ 0 ∨ year % 400 = 0) then 29 else 28)
  else if month = 4 ∨ month = 6 ∨ month = 9 ∨ month = 11 then 30 else 31

/-- the moments there are in the years which have at most four digits -/
def Moment.Valid (m : Moment) : Prop :=
  m.year ≤ 9999 ∧ 1 ≤ m.month ∧ m.month ≤ 12 ∧ 1 ≤ m.day ∧ m.day ≤ daysIn m.year m.month ∧ m.hour ≤ 23 ∧ m.minute ≤ 59 ∧
    m.second ≤ 60

/-- the names `asctime` gives the months -/
def monthName : Nat → List Char
  | 1 => ['J', 'a', 'n'] | 2 => ['F', 'e', 'b'] | 3 => ['M', 'a', 'r'] | 4 => ['A', 'p', 'r'] | 5 => ['M', 'a', 'y']
  | 6 => ['J', 'u', 'n'] | 7 => ['J', 'u', 'l'] | 8 => ['A', 'u', 'g'] | 9 => ['S', 'e', 'p'] | 10 => ['O', 'c', 't']
  | 11 => ['N', 'o', 'v'] | 12 => ['D', 'e', 'c'] | _ => []

/-- a number below a hundred in two digits -/
def two (n : Nat) : List Char := [Nat.digitChar (n / 10), Nat.digitChar (n % 10)]

/-- `__DATE__`: "Mmm dd yyyy" -/
def dateText (m : Moment) : List Char :=
  monthName m.month ++ [' '] ++ (if m.day < 10 then [' ', Nat.digitChar m.day] else two m.day) ++ [' '] ++
    two (m.year / 100) ++ two (m.year % 100)

/-- `__TIME__`: "hh:mm:ss" -/
def timeText (m : Moment) : List Char := two m.hour ++ [':'] ++ two m.minute ++ [':'] ++ two m.second

/-- what GCC writes when it can not find out the date -/
def unknownDate : List Char := "??? ?? ????".toList
/-- what GCC writes when it can not find out the time -/
def unknownTime : List Char := "??:??:??".toList

end Verif.Spec.BuildDate
