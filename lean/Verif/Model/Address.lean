import Verif.Model.Gsm7
import Verif.Model.Septets
/-! # Semi-octets and address fields: gsmmodem/pdu.py:536-658 -/
namespace Gsm

/-- The list comprehension of `encodeSemiOctets`, gsmmodem/pdu.py:629, on a string of even length:
`int(number[i+1] + number[i], 16)`. Simplification: a string with anything but hex/decimal digits
is a `ValueError` (Python's `int` also accepts signs, blanks and underscores, but the code only
passes strings of `isdigit` characters, 'F', and upper-case hex digits). -/
def semiOctetPairs [PyUnicode] : PyStr → Except PyErr (List Nat)
  | a :: b :: rest =>
    match digit16? b, digit16? a with
    | some hi, some lo => do
      let r ← semiOctetPairs rest
      return (hi * 16 + lo) :: r
    | _, _ => .error .valueError
  | _ => .ok []

/-- `encodeSemiOctets`, gsmmodem/pdu.py:621-630 (`70` is 'F'). -/
def encodeSemiOctets [PyUnicode] (number : PyStr) : Except PyErr (List Nat) :=
  semiOctetPairs (if number.length % 2 = 1 then number ++ [70] else number)

/-- Loop of `decodeSemiOctets`, gsmmodem/pdu.py:646-658, on an iterator of octets. Returns the
string and the rest of the iterator. Note `numberOfOctets = 0` never stops the loop. -/
def decodeSemiOctets (numberOfOctets : Option Nat) (i : Nat) : List Nat → PyStr × List Nat
  | [] => ([], [])
  | octet :: rest =>
    let lo := hexLower (octet % 16)
    let hi := hexLower (octet / 16)
    if octet / 16 = 15 then ([lo], rest)
    else if numberOfOctets = some (i + 1) then ([lo, hi], rest)
    else
      let r := decodeSemiOctets numberOfOctets (i + 1) rest
      (lo :: hi :: r.1, r.2)

/-- `_decodeAddressField`, gsmmodem/pdu.py:536-571. Returns `(value, bytesRead)` and the rest of
the iterator; the value is `none` for a zero-length address. `43` is '+'. -/
def decodeAddressField (it : List Nat) (smscField : Bool := false) :
    Except PyErr ((Option PyStr × Nat) × List Nat) := do
  let (addressLen, it) ← next it
  if addressLen > 0 then
    let (toa, it) ← next it
    let ton := toa &&& 0x70
    if ton = 0x50 then
      let addressLen := (addressLen + 1) / 2          -- int(math.ceil(addressLen / 2.0))
      let (septets, it) ← unpackSeptets it (some addressLen)
      let addressValue ← decodeGsm7 septets
      return ((some addressValue, addressLen + 2), it)
    else
      let (addressValue, it, addressLen) :=
        if smscField then
          let r := decodeSemiOctets (some (addressLen - 1)) 0 it
          (r.1, r.2, addressLen)
        else
          let octets := if addressLen % 2 = 1 then addressLen / 2 + 1 else addressLen / 2
          let r := decodeSemiOctets (some octets) 0 it
          (r.1, r.2, octets + 1)
      let addressValue := if ton = 0x10 then 43 :: addressValue else addressValue
      return ((some addressValue, addressLen + 1), it)
  else return ((none, 1), it)

/-- Type-of-address decision of `_encodeAddressField`, gsmmodem/pdu.py:583-605: the TOA octet, the
address with any '+' removed, and the alphaNumeric flag. `address[0]` of an empty string raises
`IndexError`. -/
def classifyAddress [PyUnicode] (address : PyStr) : Except PyErr (Nat × PyStr × Bool) :=
  let toa := 0x80 ||| 0x00 ||| 0x01
  if isAlnumStr address then
    if isDigitStr address then .ok (toa ||| 0x20, address, false)
    else .ok ((toa ||| 0x50) &&& 0xFE, address, true)
  else
    match address with
    | [] => .error .indexError
    | c :: rest =>
      if c = 43 ∧ isDigitStr rest = true then .ok (toa ||| 0x10, rest, false)
      else .ok ((toa ||| 0x50) &&& 0xFE, address, true)

/-- `_encodeAddressField`, gsmmodem/pdu.py:573-619. -/
def encodeAddressField [PyUnicode] (address : PyStr) (smscField : Bool := false) :
    Except PyErr (List Nat) := do
  let (toa, address, alphaNumeric) ← classifyAddress address
  if alphaNumeric then
    let septets ← encodeGsm7 address false
    let addressValue ← packSeptets septets
    let addressLen ← byteOf (addressValue.length * 2 : Nat)
    return addressLen :: toa :: addressValue
  else
    let addressValue ← encodeSemiOctets address
    let addressLen ← byteOf (if smscField then (addressValue.length + 1 : Nat) else (address.length : Nat))
    return addressLen :: toa :: addressValue

end Gsm
