import Verif.Spec.ModemLog
/-! # Specification: message references and delivery status

Events in the order in which they happened. -/
namespace Gsm.Spec

/-- The reference to use after the modem returned `r`. -/
def nextReference (r : Int) : Int := if r > 255 then 0 else (r + 1) % 256

/-- The last reference that the modem returned. -/
def lastReference : List SmsEvent → Option Int
  | [] => none
  | .sent r :: es => (lastReference es).or (some r)
  | .report _ _ :: es => lastReference es

/-- Status of a message: 0 en route, 1 delivered, 2 failed. -/
def statusFor (deliveryStatus : Int) : Nat := if deliveryStatus = 0 then 1 else 2

/-- The status of a message with reference `r`, given the events since it was sent: that of the last report
with its reference. When the reference is used again, reports belong to the new message. -/
def statusAfter (r : Int) (status : Nat) : List SmsEvent → Nat
  | [] => status
  | .sent r' :: es => if r' = r then status else statusAfter r status es
  | .report r' d :: es => statusAfter r (if r' = r then statusFor d else status) es

/-- The messages sent, with their references and states. -/
def sentMessages : List SmsEvent → List (Int × Nat)
  | [] => []
  | .sent r :: es => (r, statusAfter r 0 es) :: sentMessages es
  | .report _ _ :: es => sentMessages es

example : sentMessages [.sent 7, .sent 8, .report 8 0, .report 7 70, .report 9 0] = [(7, 2), (8, 1)] := by decide
example : sentMessages [.sent 7, .sent 7, .report 7 0] = [(7, 0), (7, 1)] := by decide

/-- Commands `cs` are written in this order, each again while the answer is busy, up to the first one
that is not accepted. The logs are the one before and the one after; the last argument tells whether all
of them were accepted. -/
inductive Transmission (reply : List PyStr → Reply) : List PyStr → List PyStr → List PyStr → Bool → Prop
  | done {old} : Transmission reply [] old old true
  | next {c cs old k log ok} : 0 < k →
      (∀ i, i + 1 < k → AnsweredBusy reply (List.replicate (i + 1) c ++ old)) →
      Accepted reply (List.replicate k c ++ old) →
      Transmission reply cs (List.replicate k c ++ old) log ok → Transmission reply (c :: cs) old log ok
  | stop {c cs old k} :
      (∀ i, i + 1 < k → AnsweredBusy reply (List.replicate (i + 1) c ++ old)) →
      (0 < k → ¬ Accepted reply (List.replicate k c ++ old)) →
      Transmission reply (c :: cs) old (List.replicate k c ++ old) false

end Gsm.Spec
