import Verif.Model.Pdu
/-! # Specification: messages that lost their end, or have something after it -/
namespace Gsm.Spec

/-- The same message as far as it goes: every field agrees, only the text may go on. -/
inductive SameUpToText : SmsBody → SmsBody → Prop
  | deliver {number pid time udh t u} : SameUpToText (.deliver number pid time ⟨udh, t⟩)
      (.deliver number pid time ⟨udh, t ++ u⟩)
  | submit {mr number pid vp udh t u} : SameUpToText (.submit mr number pid vp ⟨udh, t⟩)
      (.submit mr number pid vp ⟨udh, t ++ u⟩)
  | report {mr number time discharge st} : SameUpToText (.statusReport mr number time discharge st)
      (.statusReport mr number time discharge st)

/-- What is found in a PDU and in the same PDU with `n` octets more. -/
def ContinuedBy (n : Nat) (r r' : DecodedSms) : Prop :=
  r'.smsc = r.smsc ∧ r'.tpduLength = r.tpduLength + n ∧ SameUpToText r.body r'.body

/-- A message without text, or whose text does not depend on what follows it. -/
def IsReport : SmsBody → Prop
  | .statusReport .. => True
  | _ => False

end Gsm.Spec
