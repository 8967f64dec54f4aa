import Verif.Spec.Deliver
import Verif.Spec.Hex
import Verif.Spec.Stranger
import Verif.Spec.Submit
import Verif.Model.PyInt
/-! # Specification: one message in the two modes of the modem (27.005)

In PDU mode the modem hands over the octets of a message. In text mode it reads the octets itself and shows number, time and text; the octets of
texts in other alphabets than the GSM alphabet are shown in hexadecimal digits. -/
namespace Gsm.Spec

/-- A number or name in its octets (`wire`), and the same as the library reads the octets (`seen`): one `@` may be missing at the end of a name. -/
inductive Sender : PyStr → List Nat → PyStr → Prop
  | digits {toa ds} : toa < 256 → toa / 16 % 8 ≠ 5 → IsDigits ds → ds ≠ [] → ds.length < 256 →
      Sender (if toa / 16 % 8 = 1 then 43 :: ds else ds) (ds.length :: toa :: bcd ds) (if toa / 16 % 8 = 1 then 43 :: ds else ds)
  | name {toa t code ud len} : toa < 256 → toa / 16 % 8 = 5 → t ≠ [] → Readable t code → Packed 0 code ud → len < 256 → (len + 1) / 2 = ud.length →
      Sender t (len :: toa :: ud) (trimAt (code.length % 8 = 0) t)

/-- A text in its octets: alphabet, declared length, octets; the text as the library reads the octets; the text as the modem shows it. -/
inductive Body : Nat → Nat → List Nat → PyStr → PyStr → Prop
  | gsm7 {t code ud} : t ≠ [] → Readable t code → Packed 0 code ud → Body 0 code.length ud (trimAt (code.length % 8 = 0) t) t
  | ucs2 {t hex} : (∀ c ∈ t, c < 65536) → HexOf (ucs2Wire t) hex → Body 2 (2 * t.length) (ucs2Wire t) t hex
  | data {bytes hex} : (∀ x ∈ bytes, x < 256) → HexOf bytes hex → Body 1 bytes.length bytes bytes hex

/-- A time `q` quarters of an hour ahead of Greenwich, in its octets. -/
structure Clock (d : DateTime) (q : Int) (wire : List Nat) : Prop where
  wire : TsWire d wire
  zone : d.off = some (.ofSeconds (q * 900))

/-- Two digits. -/
def digitPair (n : Nat) : PyStr := [48 + n / 10 % 10, 48 + n % 10]

/-- The time as shown in text mode: `yy/MM/dd,hh:mm:ss±zz`, the last field in quarters of an hour. -/
def shownTime (d : DateTime) (q : Int) : PyStr :=
  digitPair (d.year % 100) ++ py!"/" ++ digitPair d.month ++ py!"/" ++ digitPair d.day ++ py!"," ++ digitPair d.hour ++ py!":" ++ digitPair d.minute ++
    py!":" ++ digitPair d.second ++ (if 0 ≤ q then py!"+" else py!"-") ++ digitPair q.natAbs

/-- The whole hours in `q` quarters, towards zero, in seconds. -/
def wholeHours (q : Int) : Int := if 0 ≤ q then q / 4 * 3600 else -(-q / 4 * 3600)

/-- A received message: what is in its octets. -/
structure Received where
  smsc : Option PyStr
  number : PyStr
  time : DateTime
  quarters : Int
  /-- number and text as the library reads them from the octets -/
  numberSeen : PyStr
  textSeen : PyStr
  /-- the text as the modem shows it -/
  shown : PyStr

/-- The octets of the message. -/
def Received.Octets (m : Received) (octets : List Nat) : Prop :=
  ∃ sca fo oa pid dcs scts udl ud, octets = deliverOctets sca fo oa pid dcs scts udl ud ∧
    AddrWire true m.smsc sca ∧ Sender m.number oa m.numberSeen ∧ Clock m.time m.quarters scts ∧ Body (alphabetOf dcs) udl ud m.textSeen m.shown ∧
    fo < 256 ∧ fo % 4 = 0 ∧ fo.testBit 6 = false ∧ pid < 256 ∧ dcs < 64 ∧ udl < 256

/-- The answer to `AT+CMGR` in PDU mode: state, length and the octets. -/
def pduAnswer (state len : Nat) (hex : PyStr) : List PyStr := [py!"+CMGR: " ++ decStr state ++ py!",," ++ decStr len, hex, py!"OK"]

/-- The name of the state of a received message in text mode. -/
def receivedState (read : Bool) : PyStr := if read then py!"REC READ" else py!"REC UNREAD"

/-- The answer to `AT+CMGR` in text mode. -/
def textAnswer (read : Bool) (m : Received) : List PyStr :=
  shownLines [(py!"+CMGR: \"" ++ receivedState read ++ py!"\",\"" ++ m.number ++ py!"\",,\"" ++ shownTime m.time m.quarters ++ py!"\"", m.shown)]

/-- A status report: what is in its octets. -/
structure Reported where
  smsc : Option PyStr
  reference : Nat
  number : PyStr
  numberSeen : PyStr
  sent : DateTime
  sentQuarters : Int
  discharged : DateTime
  dischargedQuarters : Int
  result : Nat

def Reported.Octets (m : Reported) (fo : Nat) (octets : List Nat) : Prop :=
  ∃ sca ra scts dt rest, octets = statusReportOctets sca fo m.reference ra scts dt m.result rest ∧
    AddrWire true m.smsc sca ∧ Sender m.number ra m.numberSeen ∧ Clock m.sent m.sentQuarters scts ∧ Clock m.discharged m.dischargedQuarters dt ∧
    fo < 256 ∧ fo % 4 = 2 ∧ m.reference < 256 ∧ m.result < 256 ∧ ∀ x ∈ rest, x < 256

/-- The answer to `AT+CMGR` in text mode for a status report; `kind` is the type of the number. -/
def textReport (read : Bool) (fo kind : Nat) (m : Reported) : List PyStr :=
  [py!"+CMGR: \"" ++ receivedState read ++ py!"\"," ++ decStr fo ++ py!"," ++ decStr m.reference ++ py!",\"" ++ m.number ++ py!"\"," ++ decStr kind ++ py!",\"" ++
      shownTime m.sent m.sentQuarters ++ py!"\",\"" ++ shownTime m.discharged m.dischargedQuarters ++ py!"\"," ++ decStr m.result, py!"OK"]

/-- What a modem sends in text mode after `AT+CSMP=49,167,0,0`: first octet, validity period, protocol and data coding are those of the command, everything else
is as in any message with this reference, number and text. -/
def byTextMode (f : SubmitFields) : SubmitFields := { f with fo := 49, vp := [167], pid := 0, dcs := 0 }

end Gsm.Spec
