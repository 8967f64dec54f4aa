import Verif.Model.DateTime
import Verif.Spec.Address
import Verif.Spec.Bits
import Verif.Spec.Gsm0338
import Verif.Spec.Udh
/-! # Specification: received PDUs on the wire (GSM 03.40), written without the code's encoders -/
namespace Gsm.Spec

/-- Semi-octets of a digit string: low nibble first, filled with 1111. -/
def bcd : List Nat → List Nat
  | [] => []
  | [a] => [0xF0 + (a - 48)]
  | a :: b :: s => ((b - 48) * 16 + (a - 48)) :: bcd s

/-- Septets packed into octets: `ud` is the bit stream of `fill` zero bits and the septets of `code`,
completed with zero bits to an octet boundary. -/
def Packed (fill : Nat) (code ud : List Nat) : Prop :=
  (∀ x ∈ ud, x < 256) ∧ ∃ k < 8, stream 8 ud = zeros fill ++ stream 7 code ++ zeros k

/-- A text the library can read: standard GSM 03.38 code, without the section sign and the form
feed (which its tables lack). -/
def Readable (t code : List Nat) : Prop := ReadsText t code ∧ 0xA7 ∉ t ∧ 0x0C ∉ t

/-- Address fields on the wire and the address they stand for. The length octet counts digits in
TP addresses and octets (type included) in the service centre address. -/
inductive AddrWire (sca : Bool) : Option (List Nat) → List Nat → Prop
  | absent : AddrWire sca none [0]
  | digits {toa ds} : toa < 256 → toa / 16 % 8 ≠ 5 → IsDigits ds → ds ≠ [] →
      (if sca then (ds.length + 1) / 2 + 1 else ds.length) < 256 →
      AddrWire sca (some (if toa / 16 % 8 = 1 then 43 :: ds else ds))
        ((if sca then (ds.length + 1) / 2 + 1 else ds.length) :: toa :: bcd ds)
  | alpha {toa t code ud len} : toa < 256 → toa / 16 % 8 = 5 → t ≠ [] → Readable t code →
      Packed 0 code ud → len < 256 → (len + 1) / 2 = ud.length →
      AddrWire sca (some (trimAt (code.length % 8 = 0) t)) (len :: toa :: ud)

/-- A two-digit number in swapped semi-octets. -/
def swapped (n : Nat) : Nat := n % 10 * 16 + n / 10

/-- Time zone octet: quarters of an hour, the sign in bit 3. -/
def tzOctet (neg : Bool) (quarters : Nat) : Nat := swapped quarters + if neg then 8 else 0

/-- A timestamp on the wire. -/
inductive TsWire : DateTime → List Nat → Prop
  | mk {d : DateTime} {neg : Bool} {q : Nat} : d.valid = true → 1969 ≤ d.year → d.year ≤ 2068 → d.micro = 0 →
      q < 80 → d.off = some (.ofSeconds (if neg then -(q * 900) else q * 900)) →
      TsWire d [swapped (d.year % 100), swapped d.month, swapped d.day, swapped d.hour, swapped d.minute,
        swapped d.second, tzOctet neg q]

/-- Alphabet of a data coding scheme of the general group (00xxxxxx): 0 GSM-7, 1 8-bit data, 2 UCS2. -/
def alphabetOf (dcs : Nat) : Nat := dcs / 4 % 4

/-- Big-endian octet pairs. -/
def ucs2Wire (t : List Nat) : List Nat := t.flatMap (fun c => [c / 256, c % 256])

/-- User data without header: alphabet, declared length, octets, and the text they stand for. -/
inductive UserWire : Nat → Nat → List Nat → List Nat → Prop
  | gsm7 {t code ud} : t ≠ [] → Readable t code → Packed 0 code ud →
      UserWire 0 code.length ud (trimAt (code.length % 8 = 0) t)
  | ucs2 {t} : (∀ c ∈ t, c < 65536) → UserWire 2 (2 * t.length) (ucs2Wire t) t
  | data {bytes} : (∀ x ∈ bytes, x < 256) → UserWire 1 bytes.length bytes bytes

/-- Fill bits after a user data header of `h` octets (its length octet included) so that the text
starts on a septet boundary. -/
def fillAfter (h : Nat) : Nat := (7 - h * 8 % 7) % 7

/-- What the library makes of a text whose first septet is skipped: the first character is lost, or,
if it takes two septets, replaced by the basic character of the second. -/
inductive FirstSeptetLost : List Nat → List Nat → Prop
  | basic {c t s} : s < 128 → s ≠ 0x1B → gsmChar s = some c → FirstSeptetLost (c :: t) t
  | ext {c d t s} : s < 128 → gsmExtChar s = some c → gsmChar s = some d → FirstSeptetLost (c :: t) (d :: t)

/-- An SMS-DELIVER with its service centre address. -/
def deliverOctets (sca : List Nat) (fo : Nat) (oa : List Nat) (pid dcs : Nat) (scts : List Nat) (udl : Nat)
    (ud : List Nat) : List Nat :=
  sca ++ (fo :: oa ++ pid :: dcs :: scts ++ udl :: ud)

/-- An SMS-STATUS-REPORT with its service centre address (and optional trailing octets). -/
def statusReportOctets (sca : List Nat) (fo mr : Nat) (ra scts dt : List Nat) (st : Nat) (rest : List Nat) :
    List Nat :=
  sca ++ (fo :: mr :: ra ++ scts ++ dt ++ st :: rest)

end Gsm.Spec
