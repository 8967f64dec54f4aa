import Verif.Model.ModemCalls
/-! # What the program waits for -/
namespace Gsm.Spec

/-- Is a USSD answer, a delivery report, a new call awaited? -/
def waits (s : St) : Bool × Bool × Bool := (s.ussdSessionEvent.isSome, s.smsStatusReportEvent.isSome, s.dialEvent.isSome)

/-- Nothing is awaited. -/
def Idle (s : St) : Prop := s.ussdSessionEvent = none ∧ s.smsStatusReportEvent = none ∧ s.dialEvent = none

/-- The methods that wait for a notification. -/
def Waiting : Op → Bool
  | .sendWait .. | .ussd .. | .ussdReply .. | .dial .. => true
  | _ => false

end Gsm.Spec
