import Verif.Model.DateTime
/-! # Comparing and subtracting times (Python standard library, `datetime`)

What a program does with `ReceivedSms.time`, `StatusReport.timeSent` and `timeFinalized`. The tzinfo objects of two messages are different objects. -/
namespace Gsm

/-- `_days_before_year`. -/
def daysBeforeYear (year : Nat) : Nat := (year - 1) * 365 + (year - 1) / 4 - (year - 1) / 100 + (year - 1) / 400

/-- `_days_before_month`: `_DAYS_BEFORE_MONTH[month] + (month > 2 and _is_leap(year))`. -/
def daysBeforeMonth (year month : Nat) : Nat :=
  [0, 0, 31, 59, 90, 120, 151, 181, 212, 243, 273, 304, 334].getD month 0 + if month > 2 ∧ isLeap year = true then 1 else 0

/-- `date.toordinal`. -/
def DateTime.toordinal (d : DateTime) : Nat := daysBeforeYear d.year + daysBeforeMonth d.year d.month + d.day

/-- `datetime.utcoffset` (`_check_utc_offset`): strictly less than a day in both directions. -/
def DateTime.utcoffset (d : DateTime) : Except PyErr (Option Timedelta) :=
  match d.off with
  | none => .ok none
  | some o => if -86400 < o.total ∧ o.total < 86400 then .ok (some o) else .error .valueError

/-- Microseconds between two times as they are written. -/
def baseDiff (a b : DateTime) : Int :=
  (((a.toordinal : Int) - b.toordinal) * 86400 + ((a.hour * 3600 + a.minute * 60 + a.second : Nat) - (b.hour * 3600 + b.minute * 60 + b.second : Nat) : Int)) * 1000000
    + ((a.micro : Int) - b.micro)

/-- `a - b` (`datetime.__sub__`), in microseconds. -/
def dtSub (a b : DateTime) : Except PyErr Int := do
  let myoff ← a.utcoffset
  let otoff ← b.utcoffset
  if myoff = otoff then return baseDiff a b
  match myoff, otoff with
  | some x, some y => return baseDiff a b + (y.total - x.total) * 1000000
  | _, _ => throw .typeError

/-- The comparison of tuples. -/
def tupleCmp : List Nat → List Nat → Int
  | a :: as, b :: bs => if a < b then -1 else if b < a then 1 else tupleCmp as bs
  | _, _ => 0

def DateTime.tuple (d : DateTime) : List Nat := [d.year, d.month, d.day, d.hour, d.minute, d.second, d.micro]

/-- `datetime._cmp`: negative, zero or positive; `<`, `==`, `sorted` and the like use it. -/
def dtCmp (a b : DateTime) : Except PyErr Int := do
  let myoff ← a.utcoffset
  let otoff ← b.utcoffset
  if myoff = otoff then return tupleCmp a.tuple b.tuple
  match myoff, otoff with
  | some _, some _ =>
    let diff ← dtSub a b
    if diff < 0 then return -1
    return if diff = 0 then 0 else 1
  | _, _ => throw .typeError

end Gsm
