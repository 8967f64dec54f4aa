import Verif.Model.WaitClock
import Verif.Spec.Clock
import Verif.Spec.Ussd
import Verif.Spec.Dial
import Verif.Spec.Delivery
/-! # Specification: how long a method that waits for a notification may block -/
namespace Gsm.Spec

/-- What happens until the moment, without the moments. -/
def upTo (m : Nat) (arrivals : List (Nat × Event)) : List Event := (arrivals.takeWhile fun a => a.1 ≤ m).map Prod.snd

/-- What happens before the moment. -/
def before (m : Nat) (arrivals : List (Nat × Event)) : List Event := (arrivals.takeWhile fun a => a.1 < m).map Prod.snd

/-- In the order of time. -/
def TimeOrder (arrivals : List (Nat × Event)) : Prop := arrivals.Pairwise fun a b => a.1 ≤ b.1

/-- The first that tells what was waited for does so at the moment `m`. -/
def FirstAt {ρ : Type} (Awaits : List Event → ρ → Prop) (nothing something : ρ) (arrivals : List (Nat × Event)) (m : Nat) : Prop :=
  ∃ pre e post, arrivals = pre ++ (m, e) :: post ∧ Awaits (pre.map Prod.snd) nothing ∧ Awaits (pre.map Prod.snd ++ [e]) something

/-- How long the request for USSD alone takes. -/
def ussdCommand (env : Env) (wait : List PyStr → Nat) (text : PyStr) (s : St) : Nat :=
  (Prog.write (py!"AT+CUSD=1,\"" ++ text ++ py!"\",15")).elapsed env wait { s with ussdSessionEvent := some false }

/-- How long the command for dialling alone takes. -/
def dialCommand (env : Env) (wait : List PyStr → Nat) (number : PyStr) (s : St) : Nat :=
  (Proc.writeAtd number).elapsed env wait (if s.waitForCallInitUpdate then { s with dialEvent := some false } else s)

/-- How long sending alone takes. -/
def sendCommandsTime [PyUnicode] (env : Env) (wait : List PyStr → Nat) (destination text : PyStr) (flash : Bool) (s : St) : Nat :=
  (Prog.sendSms destination text flash).elapsed env wait s

end Gsm.Spec
