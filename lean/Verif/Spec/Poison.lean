import Verif.Spec.Store
/-! # Specification: stored messages that cannot be understood -/
namespace Gsm.Spec

/-- The PDU is refused as one. -/
def Garbled (pdu : PyStr) : Prop := decodeSmsPdu pdu = .error .encodingError

/-- The PDU makes the program stumble, with an exception: its decoding fails in another way, or it is a message to be sent. -/
def Stumbles (pdu : PyStr) (e : PyErr) : Prop :=
  (decodeSmsPdu pdu = .error e ∧ e ≠ .encodingError) ∨
  (∃ smsc len reference number pid validity ud, decodeSmsPdu pdu = .ok ⟨smsc, len, .submit reference number pid validity ud⟩) ∧ e = .command .command none

/-- What a listing in PDU mode is taken for: the messages, each with the place that it is taken to come from, or the exception. A garbled message leaves its place
and its state to the next one. The first argument is what was left. -/
inductive ListedAs : Option (Nat × Nat) → List PduEntry → Except PyErr (List (Nat × Msg)) → Prop
  | nil (left) : ListedAs left [] (.ok [])
  | garbled {left e es r} : Garbled e.pdu → ListedAs (some (left.getD (decVal e.index, decVal e.status))) es r → ListedAs left (e :: es) r
  | message {left e es ms m} : Carries e.pdu (left.getD (decVal e.index, decVal e.status)).2 m → ListedAs none es (.ok ms) →
      ListedAs left (e :: es) (.ok (((left.getD (decVal e.index, decVal e.status)).1, m) :: ms))
  | later {left e es m x} : Carries e.pdu (left.getD (decVal e.index, decVal e.status)).2 m → ListedAs none es (.error x) → ListedAs left (e :: es) (.error x)
  | stumbles {left e es x} : Stumbles e.pdu x → ListedAs left (e :: es) (.error x)

/-- A message that makes the program stumble lies in the selected memory, with a state. -/
def Shelf.Poisoned (m : Shelf) (k : Nat) : Prop := ∃ x ∈ m.slots, x.memory = m.memory ∧ x.state = k ∧ ∃ e, Stumbles x.pdu e

end Gsm.Spec
