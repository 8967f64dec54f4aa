import Verif.Model.DateTime
/-! # Specification: texts for dates and times -/
namespace Gsm.Spec

/-- A number of at most two digits, with or without a leading zero. -/
inductive Number : Nat → PyStr → Prop
  | two {n} : n < 100 → Number n [48 + n / 10, 48 + n % 10]
  | one {n} : n < 10 → Number n [48 + n]

/-- A day of the month: a space can be there instead of a leading zero. -/
inductive DayNumber : Nat → PyStr → Prop
  | number {n t} : Number n t → DayNumber n t
  | spaced {n} : n < 10 → DayNumber n [32, 48 + n]

/-- The text `yy/MM/dd,hh:mm:ss` for a date of 1969..2068 (the year has two digits always). -/
structure TimeText (text : PyStr) (d : DateTime) : Prop where
  year : 1969 ≤ d.year ∧ d.year ≤ 2068
  real : d.valid = true
  spelt : ∃ mo da h mi s, Number d.month mo ∧ DayNumber d.day da ∧ Number d.hour h ∧ Number d.minute mi ∧ Number d.second s ∧
    text = [48 + d.year % 100 / 10, 48 + d.year % 10] ++ py!"/" ++ mo ++ py!"/" ++ da ++ py!"," ++ h ++ py!":" ++ mi ++ py!":" ++ s
  rest : d.micro = 0 ∧ d.off = none

/-- The days of the months of a year, in the Gregorian calendar. -/
def months (year : Nat) : List Nat :=
  [31, if 4 ∣ year ∧ (100 ∣ year → 400 ∣ year) then 29 else 28, 31, 30, 31, 30, 31, 31, 30, 31, 30, 31]

/-- A date of the years 1 to 9999 and a time of the day. -/
structure RealTime (d : DateTime) : Prop where
  year : 1 ≤ d.year ∧ d.year ≤ 9999
  month : 1 ≤ d.month
  day : 1 ≤ d.day ∧ ∃ n, (months d.year)[d.month - 1]? = some n ∧ d.day ≤ n
  time : d.hour < 24 ∧ d.minute < 60 ∧ d.second < 60

end Gsm.Spec
