/-! # Specification: relative validity periods, GSM 03.40 section 9.2.3.12 -/
namespace Gsm.Spec

/-- Period in seconds that a TP-VP octet stands for. -/
def vpSeconds (x : Nat) : Nat :=
  if x ≤ 143 then (x + 1) * (5 * 60)                     -- steps of 5 minutes up to 12 hours
  else if x ≤ 167 then 12 * 3600 + (x - 143) * (30 * 60) -- steps of half an hour up to 24 hours
  else if x ≤ 196 then (x - 166) * 86400                 -- days
  else (x - 192) * (7 * 86400)                           -- weeks

end Gsm.Spec
