import Verif.Spec.Store
import Verif.Spec.Concatenated
import Verif.Spec.Submit
/-! # Specification: what one program sends and what another is handed -/
namespace Gsm.Spec
open List

/-- Short texts that arrive as they were sent (C79). -/
inductive FitsOne (text : PyStr) : Prop
  | gsm7 {os} : text ≠ [] → encodeGsm7 text = .ok os → 27 ∉ text → 64 ∉ text → text.length ≤ 160 → os.length < 256 → FitsOne text
  | ucs2 : encodeGsm7 text = .error .valueError → (∀ c ∈ text, c < 65536) → text.length ≤ 70 → FitsOne text

/-- A message (destination, text, flash) to a telephone number with such a text, or a long one that fits into its parts. -/
def Conveyable (m : PyStr × PyStr × Bool) : Prop := (∃ ds, Phone m.1 ds ∧ ds.length < 256) ∧ (FitsOne m.2.1 ∨ FitsParts m.2.1)

/-- The texts `T` are those of the parts of a message with the text `text`; a short one has one part. -/
def SplitInto (text : PyStr) (T : List PyStr) : Prop := T.flatten = text ∧ (FitsOne text → T = [text])

/-- The stored message `x` is what a service centre made of the PDU `m` from `sender`. -/
def Conveyed (sender : Option PyStr) (m : PyStr) (x : HeldSms) : Prop :=
  ∃ octets os smsc time, HexOf octets m ∧ Relayed octets smsc sender time os ∧ HexOf os x.pdu

/-- The PDUs `ms` have been conveyed, in any order. -/
def AllConveyed (sender : Option PyStr) (ms : List PyStr) (stored : List HeldSms) : Prop :=
  ∃ order, order ~ ms ∧ Forall₂ (Conveyed sender) order stored

/-- The number and the text in a message that the program has been handed. -/
def readOff : Msg → Option (Option PyStr × PyStr)
  | .received _ number _ text _ => some (number, text)
  | .report .. => none

/-- The number and the text in a stored PDU. -/
def readPdu (pdu : PyStr) : Option (Option PyStr × PyStr) :=
  match decodeSmsPdu pdu with
  | .ok ⟨_, _, .deliver number _ _ ud⟩ => some (number, ud.text)
  | _ => none

end Gsm.Spec
