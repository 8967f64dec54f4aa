import Verif.Model.DateTime
import Verif.Model.Address
/-! # Validity periods and timestamps: gsmmodem/pdu.py:46-75, 456-534 -/
namespace Gsm

/-- `_decodeRelativeValidityPeriod`, gsmmodem/pdu.py:456-469. -/
def decodeRelativeValidityPeriod (tpVp : Nat) : Except PyErr Timedelta :=
  if tpVp ≤ 143 then .ok (.ofSeconds ((tpVp + 1) * 5 * 60))
  else if 144 ≤ tpVp ∧ tpVp ≤ 167 then .ok (.ofSeconds (12 * 3600 + (tpVp - 143) * 30 * 60))
  else if 168 ≤ tpVp ∧ tpVp ≤ 196 then .ok (.ofSeconds ((tpVp - 166) * 86400))
  else if 197 ≤ tpVp ∧ tpVp ≤ 255 then .ok (.ofSeconds ((tpVp - 192) * 7 * 86400))
  else .error .valueError

/-- `_encodeRelativeValidityPeriod`, gsmmodem/pdu.py:471-492. `int(a / b)` truncates towards zero;
for all timedeltas the float quotient truncates like the exact one. -/
def encodeRelativeValidityPeriod (v : Timedelta) : Except PyErr Int :=
  let seconds : Int := v.seconds + v.days * 24 * 3600
  if seconds ≤ 43200 then .ok (Int.tdiv seconds 300 - 1)
  else if seconds ≤ 86400 then .ok (Int.tdiv (seconds - 43200) 1800 + 143)
  else if v.days ≤ 30 then .ok (v.days + 166)
  else if v.days ≤ 441 then .ok (Int.tdiv v.days 7 + 192)
  else .error .valueError

/-- `int(s)` / `int(s, 16)` of a string of hex digit characters, for base 10 or 16: `ValueError`
when empty or when a character is not a digit of the base. Simplification: Python also accepts
signs, blanks, underscores and other digits; the callers only pass hex digit characters. -/
def intBase (base : Nat) (s : PyStr) : Except PyErr Nat :=
  if s.isEmpty then .error .valueError
  else s.foldlM (init := 0) fun acc c =>
    match hexVal? c with
    | some v => if v < base then .ok (acc * base + v) else .error .valueError
    | none => .error .valueError

/-- `'{0:0>2X}'.format(n)` for n < 256. -/
def hex2 (n : Nat) : PyStr := [hexUpper (n / 16), hexUpper (n % 16)]

/-- `SmsPduTzInfo._setPduOffsetStr`, gsmmodem/pdu.py:62-68 (`timedelta(minutes=n*15)`). -/
def pduTzOffset (pduOffsetStr : PyStr) : Except PyErr Timedelta := do
  let tzHexVal ← intBase 16 pduOffsetStr
  if tzHexVal &&& 0x80 = 0 then
    let n ← intBase 10 pduOffsetStr
    return .ofSeconds (n * 15 * 60)
  else
    let n ← intBase 10 (hex2 (tzHexVal &&& 0x7F))
    return .ofSeconds (n * (-15) * 60)

/-- `_decodeTimestamp`, gsmmodem/pdu.py:494-498. `dateStr[-2:]` and `dateStr[:-2]`. -/
def decodeTimestamp (it : List Nat) : Except PyErr (DateTime × List Nat) := do
  let (dateStr, it) := decodeSemiOctets (some 7) 0 it
  let timeZoneStr := dateStr.drop (dateStr.length - 2)
  let dt ← strptimeCompact (dateStr.take (dateStr.length - 2))
  let off ← pduTzOffset timeZoneStr
  return ({ dt with off := some off }, it)

/-- The time zone digits of `_encodeTimestamp`, gsmmodem/pdu.py:515-522. -/
def encodeTzStr (tzDelta : Timedelta) : Except PyErr PyStr :=
  if tzDelta.days ≥ 0 then .ok (pad2 (tzDelta.seconds / 60 / 15))
  else do
    let tzVal := (tzDelta.days * -3600 * 24 - tzDelta.seconds).toNat / 60 / 15
    let tzVal ← intBase 16 (pad2 tzVal)
    return hex2 (tzVal ||| 0x80)

/-- `_encodeTimestamp`, gsmmodem/pdu.py:500-526. -/
def encodeTimestamp [PyUnicode] (timestamp : DateTime) : Except PyErr (List Nat) :=
  match timestamp.off with
  | none => .error .valueError
  | some tzDelta => do
    let tzValStr ← encodeTzStr tzDelta
    encodeSemiOctets (strftimeCompact timestamp ++ tzValStr)

/-- `_decodeDataCoding`, gsmmodem/pdu.py:528-534. -/
def decodeDataCoding (octet : Nat) : Nat :=
  if octet &&& 0xC0 = 0 then (octet &&& 0x0C) >>> 2 else 0

end Gsm
