import Verif.Model.Instant
import Verif.Spec.TextTime
/-! # Specification: the instant that a time stands for -/
namespace Gsm.Spec

/-- The days of the years before, counted year by year and month by month. -/
def daysOfYears : Nat → Nat
  | 0 => 0
  | y + 1 => daysOfYears y + (if y = 0 then 0 else (months y).sum)

/-- The number of the day, the first of January of the year 1 being day 1. -/
def dayNumber (d : DateTime) : Nat := daysOfYears d.year + ((months d.year).take (d.month - 1)).sum + d.day

/-- Seconds on the local clock. -/
def localSeconds (d : DateTime) : Int := dayNumber d * 86400 + d.hour * 3600 + d.minute * 60 + d.second

/-- The instant, in seconds of universal time, at which the clocks of a zone that is `q` quarters of an hour ahead show this. -/
def instantOf (d : DateTime) (q : Int) : Int := localSeconds d - q * 900

end Gsm.Spec
