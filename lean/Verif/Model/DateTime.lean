import Verif.Model.Py
/-! # `datetime` values and `strptime` (Python standard library, as far as the code uses it) -/
namespace Gsm

/-- `datetime.timedelta`: `days` any integer, `0 <= seconds < 86400`, microseconds. -/
structure Timedelta where
  days : Int
  seconds : Nat
  micros : Nat := 0
  deriving DecidableEq, Repr

/-- `timedelta(seconds=s)` (normalised). -/
def Timedelta.ofSeconds (s : Int) : Timedelta := ⟨s / 86400, (s % 86400).toNat, 0⟩

/-- Total whole seconds. -/
def Timedelta.total (d : Timedelta) : Int := d.seconds + d.days * 86400

/-- `datetime.datetime`; `off` is `utcoffset()` when there is a tzinfo. (A tzinfo whose
`utcoffset` is None is not modelled.) -/
structure DateTime where
  year : Nat
  month : Nat
  day : Nat
  hour : Nat
  minute : Nat
  second : Nat
  micro : Nat := 0
  off : Option Timedelta := none
  deriving DecidableEq, Repr

def isLeap (y : Nat) : Bool := (y % 4 == 0 && y % 100 != 0) || y % 400 == 0

def daysInMonth (y m : Nat) : Nat :=
  if m = 2 then (if isLeap y then 29 else 28)
  else if m = 4 ∨ m = 6 ∨ m = 9 ∨ m = 11 then 30 else 31

/-- The range checks of the `datetime` constructor. -/
def DateTime.valid (d : DateTime) : Bool :=
  decide (1 ≤ d.year ∧ d.year ≤ 9999 ∧ 1 ≤ d.month ∧ d.month ≤ 12 ∧ 1 ≤ d.day ∧
    d.day ≤ daysInMonth d.year d.month ∧ d.hour ≤ 23 ∧ d.minute ≤ 59 ∧ d.second ≤ 59)

/-! `strptime` builds one regular expression out of a sub-expression per directive, takes the first
match (backtracking, alternatives in order) at the start of the string, and then requires that the
match covered the whole string. A field parser lists its alternatives in that order. -/

/-- A field: from the input, the possible (value, rest) in regex priority order. -/
abbrev Field := PyStr → List (Nat × PyStr)

def twoDigits (pa pb : Nat → Bool) : Field
  | a :: b :: r => if pa a && pb b then [(10 * (a - 48) + (b - 48), r)] else []
  | _ => []
def oneDigit (pa : Nat → Bool) : Field
  | a :: r => if pa a then [(a - 48, r)] else []
  | _ => []
def inR (lo hi : Nat) (c : Nat) : Bool := decide (lo ≤ c ∧ c ≤ hi)

/-- `%y`: `\d\d` (ASCII digits only in the model). -/
def fieldY : Field := twoDigits (inR 48 57) (inR 48 57)
/-- `%m`: `1[0-2]|0[1-9]|[1-9]`. -/
def fieldMon : Field := fun s =>
  twoDigits (· == 49) (inR 48 50) s ++ twoDigits (· == 48) (inR 49 57) s ++ oneDigit (inR 49 57) s
/-- `%d`: `3[0-1]|[1-2]\d|0[1-9]|[1-9]| [1-9]` (for the last alternative `32 - 48 = 0` as needed). -/
def fieldDay : Field := fun s =>
  twoDigits (· == 51) (inR 48 49) s ++ twoDigits (inR 49 50) (inR 48 57) s ++
  twoDigits (· == 48) (inR 49 57) s ++ oneDigit (inR 49 57) s ++ twoDigits (· == 32) (inR 49 57) s
/-- `%H`: `2[0-3]|[0-1]\d|\d`. -/
def fieldHour : Field := fun s =>
  twoDigits (· == 50) (inR 48 51) s ++ twoDigits (inR 48 49) (inR 48 57) s ++ oneDigit (inR 48 57) s
/-- `%M`: `[0-5]\d|\d`. -/
def fieldMin : Field := fun s => twoDigits (inR 48 53) (inR 48 57) s ++ oneDigit (inR 48 57) s
/-- `%S`: `6[0-1]|[0-5]\d|\d`. -/
def fieldSec : Field := fun s =>
  twoDigits (· == 54) (inR 48 49) s ++ twoDigits (inR 48 53) (inR 48 57) s ++ oneDigit (inR 48 57) s
/-- A literal character of the format. -/
def fieldLit (c : Nat) : Field
  | a :: r => if a = c then [(0, r)] else []
  | _ => []

/-- First match of a sequence of fields. -/
def firstParse : List Field → PyStr → Option (List Nat × PyStr)
  | [], s => some ([], s)
  | f :: fs, s => (f s).findSome? fun vr => (firstParse fs vr.2).map fun w => (vr.1 :: w.1, w.2)

/-- End of `strptime`: whole input consumed, two-digit year pivot, range checks. -/
def mkStrptime (r : Option (List Nat × PyStr)) (pick : List Nat → Option (List Nat)) :
    Except PyErr DateTime :=
  match r with
  | some (vs, []) =>
    match pick vs with
    | some [y, mo, d, h, mi, s] =>
      let dt : DateTime := ⟨if y ≤ 68 then y + 2000 else y + 1900, mo, d, h, mi, s, 0, none⟩
      if dt.valid then .ok dt else .error .valueError
    | _ => .error .valueError
  | _ => .error .valueError

/-- `datetime.strptime(s, '%y%m%d%H%M%S')`. -/
def strptimeCompact (s : PyStr) : Except PyErr DateTime :=
  mkStrptime (firstParse [fieldY, fieldMon, fieldDay, fieldHour, fieldMin, fieldSec] s) some

/-- `'{0:0>2}'.format(n)` for n < 100, i.e. two decimal digits; also `strftime`'s fields. -/
def pad2 (n : Nat) : PyStr := [48 + n / 10, 48 + n % 10]

/-- `strftime('%y%m%d%H%M%S')`. -/
def strftimeCompact (d : DateTime) : PyStr :=
  pad2 (d.year % 100) ++ pad2 d.month ++ pad2 d.day ++ pad2 d.hour ++ pad2 d.minute ++ pad2 d.second

end Gsm
