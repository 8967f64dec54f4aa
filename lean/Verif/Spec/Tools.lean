import Verif.Model.Tools
import Verif.Spec.SentSms
import Verif.Spec.Connect
/-! # Specification: the command line tools -/
namespace Gsm.Spec

/-- What the user is to be told about a message: 0 nothing is known about its delivery, 1 delivered, 2 failed. -/
def outcomeNote : Nat → PyStr
  | 0 => py!"Message sent."
  | 1 => py!"Message sent and delivered OK."
  | _ => py!"Message sent, but delivery failed."

/-- How many messages the modem has taken. -/
def taken : List SmsEvent → Nat
  | [] => 0
  | .sent _ :: es => taken es + 1
  | .report _ _ :: es => taken es

/-- The questions of `identify-modem.py -d`. -/
def debugCommands : List PyStr :=
  [py!"ATI", py!"AT+CGMI", py!"AT+CGMM", py!"AT+CGMR", py!"AT+CFUN=?", py!"AT+WIND=?", py!"AT+WIND?", py!"AT+CPMS=?", py!"AT+CNMI=?",
   py!"AT+CVHU=?", py!"AT+CSMP?", py!"AT+GCAP", py!"AT+CPIN?", py!"AT+CLAC"]

/-- The questions of `identify-modem.py`; some are asked twice. -/
def infoCommands (revisionKnown : Bool) : List PyStr :=
  [py!"AT+CGMI", py!"AT+CGMM", py!"AT+CGMR"] ++ (if revisionKnown then [py!"AT+CGMR"] else []) ++
    [py!"AT+CGSN", py!"AT+CGSN", py!"AT+CIMI", py!"AT+CIMI", py!"AT+COPS?", py!"AT+CSQ"]

/-- The question is asked once, and these are the lines of the answer. -/
def PlainAnswer (reply : List PyStr → Reply) (log : List PyStr) (c : PyStr) (ls : List PyStr) : Prop :=
  reply ((c ++ [13]) :: log) = .lines ls ∧ ls ≠ []

/-- Questions with their answers, up to the first one that is not answered. -/
inductive Interview (reply : List PyStr → Reply) : List PyStr → List PyStr → List PyStr → List (List PyStr) → Bool → Prop
  | done {log} : Interview reply [] log log [] true
  | next {c cs log log' ls answers ok} : PlainAnswer reply log c ls → Interview reply cs ((c ++ [13]) :: log) log' answers ok →
      Interview reply (c :: cs) log log' (ls :: answers) ok
  | stop {c cs log} : (∀ ls, ¬ PlainAnswer reply log c ls) → Interview reply (c :: cs) log ((c ++ [13]) :: log) [] false

end Gsm.Spec
