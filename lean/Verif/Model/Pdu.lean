import Verif.Model.Gsm7
import Verif.Model.Septets
import Verif.Model.Ucs2
import Verif.Model.Address
import Verif.Model.Validity
import Verif.Model.Udh
/-! # SMS PDUs: gsmmodem/pdu.py:217-454 -/
namespace Gsm

/-- `Pdu`, gsmmodem/pdu.py:217-228. -/
structure Pdu where
  data : List Nat
  tpduLength : Nat
  deriving DecidableEq, Repr

/-- `Pdu.__str__`, gsmmodem/pdu.py:230-235 (upper-case hex). -/
def pduHex (data : List Nat) : PyStr := data.flatMap fun b => [hexUpper (b / 16), hexUpper (b % 16)]

/-- The `validity` argument. -/
inductive Validity
  | none
  | relative (v : Timedelta)
  | absolute (d : DateTime)
  | otherType
  deriving DecidableEq, Repr

/-- Bits of the first octet due to `validity` and the encoded period before the byte check;
gsmmodem/pdu.py:257-271. -/
def validityPart [PyUnicode] : Validity → Except PyErr (Nat × List Int)
  | .none => .ok (0, [])
  | .relative v => do
    let x ← encodeRelativeValidityPeriod v
    return (0x10, [x])
  | .absolute d => do
    let os ← encodeTimestamp d
    return (0x18, os.map (fun (n : Nat) => (n : Int)))
  | .otherType => .error .typeError

/-- `MAX_MESSAGE_LENGTH[alphabet]`, gsmmodem/pdu.py:42-44 (alphabet 0x00 or 0x08). -/
def maxMessageLength (alphabet : Nat) : Nat := if alphabet = 0 then 160 else 70

/-- The `smsc` field, gsmmodem/pdu.py:302-305 (`if smsc` is false for None and ''). -/
def smscField [PyUnicode] : Option PyStr → Except PyErr (List Nat)
  | none => .ok [0x00]
  | some [] => .ok [0x00]
  | some s => encodeAddressField s true

/-- Choice of alphabet, gsmmodem/pdu.py:278-284: UCS2 on `ValueError`; other errors escape. -/
def chooseAlphabet (text : PyStr) : Except PyErr Nat :=
  match encodeGsm7 text with
  | .ok _ => .ok 0x00
  | .error .valueError => .ok 0x08
  | .error e => .error e

/-- User data and its declared length, gsmmodem/pdu.py:331-349, for the text of one part and the
encoded user data header (possibly empty). -/
def userDataPart (alphabet : Nat) (pduText : PyStr) (udh : List Nat) :
    Except PyErr (List Nat) := do
  let udhLen := udh.length
  let (userDataLength, userData) ←
    if alphabet = 0x00 then do
      let encodedText ← encodeGsm7 pduText
      if udhLen > 0 then
        let shift := ((udhLen + 1) * 8) % 7
        let userData ← packSeptets encodedText shift
        pure (if shift > 0 then encodedText.length + 1 else encodedText.length, userData)
      else
        let userData ← packSeptets encodedText
        pure (encodedText.length, userData)
    else do
      let userData ← encodeUcs2 pduText
      pure (userData.length, userData)
  if udhLen > 0 then
    let udl ← byteOf (userDataLength + udhLen + 1 : Nat)
    let udhl ← byteOf udhLen
    return udl :: udhl :: udh ++ userData
  else
    let udl ← byteOf userDataLength
    return udl :: userData

/-- One iteration of the PDU loop, gsmmodem/pdu.py:300-354. `parts` is `some n` when the message is
concatenated. -/
def submitPart [PyUnicode] (number text : PyStr) (reference : Int) (smsc : Option PyStr)
    (sendFlash : Bool) (tpduFirstOctet : Nat) (validityPeriod : List Int) (alphabet : Nat)
    (parts : Option Nat) (i : Nat) : Except PyErr Pdu := do
  let smscOctets ← smscField smsc
  let (udh, pduText) ←
    match parts with
    | some n => do
      let udh ← encodeConcatenation reference n (i + 1 : Nat)
      let pduText := if alphabet = 0x00 then (text.drop (i * 153)).take 153
                     else (text.drop (i * 67)).take 67
      pure (udh, pduText)
    | none => pure ([], text)
  let ref ← byteOf reference
  let dest ← encodeAddressField number
  let dcs := if !sendFlash then alphabet else if alphabet = 0x00 then 0x10 else 0x18
  let vp ← bytesOf validityPeriod
  let ud ← userDataPart alphabet pduText udh
  let pdu := smscOctets ++ tpduFirstOctet :: ref :: dest ++ 0x00 :: dcs :: vp ++ ud
  return ⟨pdu, pdu.length - 1⟩

/-- The PDU loop, gsmmodem/pdu.py:299-355, over the given part numbers. -/
def submitLoop (part : Nat → Except PyErr Pdu) : List Nat → Except PyErr (List Pdu)
  | [] => .ok []
  | i :: is => do
    let p ← part i
    let ps ← submitLoop part is
    return p :: ps

/-- `encodeSmsSubmitPdu`, gsmmodem/pdu.py:238-355. -/
def encodeSmsSubmitPdu [PyUnicode] (number text : PyStr) (reference : Int := 0)
    (validity : Validity := .none) (smsc : Option PyStr := none) (requestStatusReport : Bool := true)
    (rejectDuplicates : Bool := false) (sendFlash : Bool := false) : Except PyErr (List Pdu) := do
  let (vbits, validityPeriod) ← validityPart validity
  let fo := 0x01 ||| vbits
  let fo := if rejectDuplicates then fo ||| 0x04 else fo
  let fo := if requestStatusReport then fo ||| 0x20 else fo
  let alphabet ← chooseAlphabet text
  if text.length > maxMessageLength alphabet then
    let pduCount := text.length / maxMessageLength alphabet + 1
    submitLoop (submitPart number text reference smsc sendFlash (fo ||| 0x40) validityPeriod alphabet
      (some pduCount)) (List.range pduCount)
  else
    submitLoop (submitPart number text reference smsc sendFlash fo validityPeriod alphabet none)
      (List.range 1)

/-- The `validity` entry of a decoded SUBMIT. -/
inductive DecodedValidity
  | absent
  | relative (v : Timedelta)
  | absolute (d : DateTime)
  deriving DecidableEq, Repr

/-- Result of `_decodeUserData`: `udh` is present only when the UDHI bit is set. -/
structure UserData where
  udh : Option (List IE)
  text : PyStr
  deriving DecidableEq, Repr

/-- The type-specific part of the result dictionary of `decodeSmsPdu`. -/
inductive SmsBody
  | deliver (number : Option PyStr) (protocolId : Nat) (time : DateTime) (ud : UserData)
  | submit (reference : Nat) (number : Option PyStr) (protocolId : Nat)
      (validity : DecodedValidity) (ud : UserData)
  | statusReport (reference : Nat) (number : Option PyStr) (time discharge : DateTime) (status : Nat)
  deriving DecidableEq, Repr

/-- The result dictionary of `decodeSmsPdu`. -/
structure DecodedSms where
  smsc : Option PyStr
  tpduLength : Int
  body : SmsBody
  deriving DecidableEq, Repr

/-- The text part of `_decodeUserData`, gsmmodem/pdu.py:434-454, once the header has been read. -/
def decodeUserText (it : List Nat) (userDataLen dataCoding : Nat) (udhLen : Option Nat) :
    Except PyErr PyStr :=
  if dataCoding = 0x00 then
    match udhLen with
    | some udhLen => do
      let shift := ((udhLen + 1) * 8) % 7
      let (prevOctet, it) ← next it
      let shift := shift + 1
      let (septets, _) ← unpackSeptets it (some userDataLen) (some prevOctet) shift
      decodeGsm7 septets
    | none => do
      let (septets, _) ← unpackSeptets it (some userDataLen)
      decodeGsm7 septets
  else if dataCoding = 0x02 then .ok (decodeUcs2 it userDataLen).1
  else .ok it

/-- `_decodeUserData`, gsmmodem/pdu.py:420-454. -/
def decodeUserData (it : List Nat) (userDataLen dataCoding : Nat) (udhPresent : Bool) :
    Except PyErr UserData := do
  if udhPresent then
    let (udhLen, it) ← next it
    let (udh, it) ← decodeUdhLoop udhLen udhLen 0 it
    let text ← decodeUserText it userDataLen dataCoding (some udhLen)
    return ⟨some udh, text⟩
  else
    let text ← decodeUserText it userDataLen dataCoding none
    return ⟨none, text⟩

/-- The part of `decodeSmsPdu` after the SMSC field, gsmmodem/pdu.py:380-418. -/
def decodeTpdu (it : List Nat) : Except PyErr SmsBody := do
  let (fo, it) ← next it
  let pduType := fo &&& 0x03
  let udhPresent := decide ((fo &&& 0x40) ≠ 0)
  if pduType = 0x00 then
    let ((number, _), it) ← decodeAddressField it
    let (protocolId, it) ← next it
    let (dcs, it) ← next it
    let (time, it) ← decodeTimestamp it
    let (userDataLen, it) ← next it
    let ud ← decodeUserData it userDataLen (decodeDataCoding dcs) udhPresent
    return .deliver number protocolId time ud
  else if pduType = 0x01 then
    let (reference, it) ← next it
    let ((number, _), it) ← decodeAddressField it
    let (protocolId, it) ← next it
    let (dcs, it) ← next it
    let vpf := (fo &&& 0x18) >>> 3
    let (validity, it) ←
      if vpf = 0x02 then do
        let (x, it) ← next it
        let v ← decodeRelativeValidityPeriod x
        pure (DecodedValidity.relative v, it)
      else if vpf = 0x03 then do
        let (d, it) ← decodeTimestamp it
        pure (DecodedValidity.absolute d, it)
      else pure (DecodedValidity.absent, it)
    let (userDataLen, it) ← next it
    let ud ← decodeUserData it userDataLen (decodeDataCoding dcs) udhPresent
    return .submit reference number protocolId validity ud
  else if pduType = 0x02 then
    let (reference, it) ← next it
    let ((number, _), it) ← decodeAddressField it
    let (time, it) ← decodeTimestamp it
    let (discharge, it) ← decodeTimestamp it
    let (status, _) ← next it
    return .statusReport reference number time discharge status
  else .error .encodingError

/-- `decodeSmsPdu` on a bytearray, gsmmodem/pdu.py:373-418. -/
def decodeSmsPduOctets (pdu : List Nat) : Except PyErr DecodedSms := do
  let ((smsc, smscBytesRead), it) ← decodeAddressField pdu true
  let body ← decodeTpdu it
  return ⟨smsc, (pdu.length : Int) - smscBytesRead, body⟩

/-- `codecs.decode(bytes(x, 'ascii'), 'hex_codec')`: fails on odd length or a non-hex character. -/
def unhex : PyStr → Option (List Nat)
  | [] => some []
  | a :: b :: rest =>
    match hexVal? a, hexVal? b, unhex rest with
    | some hi, some lo, some r => some ((hi * 16 + lo) :: r)
    | _, _, _ => none
  | [_] => none

/-- `decodeSmsPdu` on a hex string, gsmmodem/pdu.py:357-418 (any failure of `toByteArray` becomes
`EncodingError`). -/
def decodeSmsPdu (s : PyStr) : Except PyErr DecodedSms :=
  match unhex s with
  | none => .error .encodingError
  | some pdu => decodeSmsPduOctets pdu

end Gsm
