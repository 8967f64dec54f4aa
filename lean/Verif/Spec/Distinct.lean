import Verif.Spec.Sendable
import Verif.Spec.Validity
import Verif.Model.Pdu
/-! # Specification: when two messages are the same to the network

An address is a number (local or international) with its digits, or a name. In the packed septets of a name a final '@'
(septet 0) that fills the last octet looks like the padding. A period of validity is one of the 256 periods that an octet
can stand for; a time is given to the second, its zone to the quarter of an hour. A long text is cut into parts. -/
namespace Gsm.Spec

/-- What an address stands for. -/
inductive Destination
  | loc (digits : List Nat)
  | intl (digits : List Nat)
  | name (characters : List Nat)
  deriving DecidableEq, Repr

/-- The values of digits. -/
def digitValues [PyUnicode] (ds : List Nat) : List Nat := ds.map fun c => (PyUnicode.decimal c).getD 0

/-- Whether a string is taken for digits. -/
def allDigits [PyUnicode] (ds : List Nat) : Bool := !ds.isEmpty && ds.all PyUnicode.isdigit

/-- The destination an address stands for. -/
def destinationOf [PyUnicode] (a : List Nat) : Destination :=
  if allDigits a then .loc (digitValues a)
  else match a with
    | 43 :: ds => if allDigits ds then .intl (digitValues ds) else .name (trimAt (septetCount a % 8 = 0) a)
    | _ => .name (trimAt (septetCount a % 8 = 0) a)

/-- The service centre: none, if the argument is `None` or empty. -/
def centreOf [PyUnicode] : Option (List Nat) → Option Destination
  | some (c :: s) => some (destinationOf (c :: s))
  | _ => none

/-- The moment that is stated: to the second, with the zone in quarters of an hour. -/
def stated (d : DateTime) : DateTime := { d with micro := 0, off := d.off.map fun o => .ofSeconds (Int.tdiv o.total 900 * 900) }

/-- Whether the zone is west of Greenwich. -/
def west (d : DateTime) : Bool := d.off.any fun o => decide (o.total < 0)

/-- Times that can be stated: of the years that two digits stand for, with a zone of less than 20 hours. -/
def Statable : Validity → Prop
  | .absolute d => d.valid = true ∧ 1969 ≤ d.year ∧ d.year ≤ 2068 ∧ ∃ off, d.off = some off ∧ off.seconds < 86400 ∧ -72000 < off.total ∧ off.total < 72000
  | .relative v => v.seconds < 86400
  | _ => True

/-- The same validity: the same of the periods that can be stated fit in both, or the same moment. -/
def SameValidity : Validity → Validity → Prop
  | .none, .none => True
  | .relative v, .relative w => ∀ x < 256, (vpSeconds x : Int) ≤ v.total ↔ (vpSeconds x : Int) ≤ w.total
  | .absolute d, .absolute e => stated d = stated e ∧ west d = west e
  | _, _ => False

instance : DecidablePred Encodable := fun c => by unfold Encodable; infer_instance

/-- Whether a text needs the wide alphabet. -/
def isWide (t : List Nat) : Bool := t.any fun c => decide (¬ Encodable c)

/-- Characters in a message of its own, and in each part of a longer one. -/
def wholeSize (t : List Nat) : Nat := if isWide t then 70 else 160
def pieceSize (t : List Nat) : Nat := if isWide t then 67 else 153

/-- Number of parts. -/
def pieces (t : List Nat) : Nat := if t.length ≤ wholeSize t then 1 else t.length / wholeSize t + 1

/-- The characters that are sent: all of them in a short text, those that have a place in the parts of a long one. -/
def conveyed (t : List Nat) : List Nat := if pieces t = 1 then t else t.take (pieces t * pieceSize t)

/-- The arguments of `encodeSmsSubmitPdu`. -/
structure Request where
  number : List Nat
  text : List Nat
  reference : Int
  validity : Validity
  smsc : Option (List Nat)
  report : Bool
  rejectDuplicates : Bool
  flash : Bool

/-- No escape character in the text and the names. -/
def Request.NoEscape (q : Request) : Prop := 27 ∉ q.text ∧ 27 ∉ q.number ∧ ∀ s, q.smsc = some s → 27 ∉ s

/-- Two requests for the same. -/
structure SameRequest [PyUnicode] (a b : Request) : Prop where
  number : destinationOf a.number = destinationOf b.number
  smsc : centreOf a.smsc = centreOf b.smsc
  validity : SameValidity a.validity b.validity
  reference : a.reference = b.reference
  report : a.report = b.report
  rejectDuplicates : a.rejectDuplicates = b.rejectDuplicates
  flash : a.flash = b.flash
  wide : isWide a.text = isWide b.text
  pieces : pieces a.text = pieces b.text
  text : conveyed a.text = conveyed b.text

end Gsm.Spec
