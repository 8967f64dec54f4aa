import Verif.Model.ModemSms
import Verif.Spec.Modem
/-! # Specification: listings of stored messages -/
namespace Gsm.Spec

/-- A number as it is written. -/
def Digits (s : PyStr) : Prop := s ≠ [] ∧ ∀ c ∈ s, 48 ≤ c ∧ c ≤ 57
/-- Blanks. -/
def Blanks (s : PyStr) : Prop := ∀ c ∈ s, c = 32 ∨ c = 9

/-- An entry of a listing in PDU mode. -/
structure PduEntry where
  blanks : PyStr
  index : PyStr
  blanks' : PyStr
  status : PyStr
  rest : PyStr
  pdu : PyStr

def PduEntry.Ok (e : PduEntry) : Prop := Blanks e.blanks ∧ Digits e.index ∧ Blanks e.blanks' ∧ Digits e.status ∧ 10 ∉ e.rest

def PduEntry.lines (e : PduEntry) : List PyStr :=
  [py!"+CMGL:" ++ e.blanks ++ e.index ++ py!"," ++ e.blanks' ++ e.status ++ py!"," ++ e.rest, e.pdu]

/-- The message of an entry: a received message or a status report, as the PDU says. -/
def PduEntry.Means (e : PduEntry) (m : Msg) : Prop :=
  (∃ smsc len number pid time ud, decodeSmsPdu e.pdu = .ok ⟨smsc, len, .deliver number pid time ud⟩ ∧
    m = .received (decVal e.status) number time ud.text smsc) ∨
  (∃ smsc len reference number time discharge status,
    decodeSmsPdu e.pdu = .ok ⟨smsc, len, .statusReport reference number time discharge status⟩ ∧
    m = .report (decVal e.status) reference number time discharge status)

/-- An entry of a listing in text mode. -/
structure TextEntry where
  index : PyStr
  status : PyStr
  number : PyStr
  alpha : PyStr
  time : PyStr
  body : List PyStr

/-- The names of the states. -/
def stateNames : List (PyStr × Int) :=
  [(py!"REC UNREAD", 0), (py!"REC READ", 1), (py!"STO UNSENT", 2), (py!"STO SENT", 3), (py!"ALL", 4)]

/-- The body has lines, and none of them looks like another entry or like the end of the listing. -/
structure TextEntry.Ok (e : TextEntry) : Prop where
  index : Digits e.index
  number : e.number ≠ [] ∧ 34 ∉ e.number
  alpha : 44 ∉ e.alpha
  time : e.time ≠ [] ∧ 34 ∉ e.time
  body : e.body ≠ []
  lines : ∀ l ∈ e.body, ¬ py!"+CMGL: " <+: l ∧ l ≠ py!"OK"

def TextEntry.lines (e : TextEntry) : List PyStr :=
  (py!"+CMGL: " ++ e.index ++ py!",\"" ++ e.status ++ py!"\",\"" ++ e.number ++ py!"\"," ++ e.alpha ++ py!",\"" ++ e.time ++ py!"\"") :: e.body

/-- The message of an entry; `lines` joined by line feeds. -/
def TextEntry.Means (e : TextEntry) (m : Msg) : Prop :=
  ∃ n t, (e.status, n) ∈ stateNames ∧ parseTextModeTimeStr e.time = .ok t ∧
    m = .received n (some e.number) t ([10].intercalate e.body) none

/-- The commands that delete the listed messages: all messages of the memory when all were listed, otherwise
those with the listed indices, in some order. -/
def Deletes (status : Int) (indices : List Nat) (cs : List PyStr) : Prop :=
  if status = 4 then cs = [py!"AT+CMGD=1,4\r"]
  else ∃ order : List Nat, order.Nodup ∧ (∀ i, i ∈ order ↔ i ∈ indices) ∧
    cs = order.map fun i => py!"AT+CMGD=" ++ decStr i ++ py!",0\r"

end Gsm.Spec
