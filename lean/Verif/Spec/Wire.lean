import Verif.Model.Several
import Verif.Spec.ModemLog
/-! # Specification: how the modem takes the characters it gets

The modem gets characters, not commands. It takes them for a command up to a carriage return; but after it has
asked for a message, it takes them for the message, up to the end of text (Ctrl-Z, 26) or the character that
cancels the message (escape, 27). Carriage returns may be part of the message. -/
namespace Gsm.Spec

/-- The character ends a message (if `asked`) or a command. -/
def endsUnit (asked : Bool) (c : Nat) : Bool := if asked then c == 26 || c == 27 else c == 13

/-- How a modem takes the characters: `asks log` tells whether it asks for a message after having taken `log`
(the most recent command or message first); `part` has not been ended yet. -/
def wireTakes (asks : List PyStr → Bool) : List PyStr → PyStr → PyStr → List PyStr × PyStr
  | log, part, [] => (log, part)
  | log, part, c :: cs => if endsUnit (asks log) c then wireTakes asks ((part ++ [c]) :: log) [] cs else wireTakes asks log (part ++ [c]) cs

/-- The modem asks for a message after an accepted command `AT+CMGS=…`, and only then. -/
structure Prompts (reply : List PyStr → Reply) (asks : List PyStr → Bool) : Prop where
  first : asks [] = false
  next : ∀ c log, asks (c :: log) = true ↔ asks log = false ∧ py!"AT+CMGS=" <+: c ∧ Accepted reply (c :: log)

/-- It never answers that it is busy to the message itself. -/
def NotBusyThen (reply : List PyStr → Reply) (asks : List PyStr → Bool) : Prop :=
  ∀ c log, asks log = true → ¬ AnsweredBusy reply (c :: log)

/-- No carriage return. -/
def Flat (s : PyStr) : Prop := 13 ∉ s

/-- Nothing that ends a message. -/
def Endless (s : PyStr) : Prop := 26 ∉ s ∧ 27 ∉ s

/-- The lines in the answers of the modem have no carriage returns inside. -/
def FlatReplies (reply : List PyStr → Reply) : Prop := ∀ log ls, reply log = .lines ls → ∀ l ∈ ls, Flat l

def flatEvent : Event → Prop
  | .notify ls => ∀ l ∈ ls, Flat l
  | .poll _ => True

/-- What the user gives has no characters that end commands; in text mode, the text of a message has none that
end messages. Numbers and texts of messages in PDU mode are arbitrary. -/
def Fits (s : St) : Deed → Prop
  | .connect pin => ∀ p, pin = some p → Flat p
  | .close => True
  | .op o => match o with
    | .event e => flatEvent e
    | .setSmsc n => ∀ x, n = some x → Flat x
    | .read i m => Flat i ∧ ∀ x, m = some x → Flat x
    | .delete i m => Flat i ∧ ∀ x, m = some x → Flat x
    | .deleteMultiple _ m => ∀ x, m = some x → Flat x
    | .list _ m _ => ∀ x, m = some x → Flat x
    | .send d t _ => s.smsTextMode = true → Flat d ∧ Endless t
    | .sendWait d t _ e du => (s.smsTextMode = true → Flat d ∧ Endless t) ∧ (∀ x ∈ e, flatEvent x) ∧ ∀ x ∈ du, flatEvent x
    | .ussd x du => Flat x ∧ ∀ x ∈ du, flatEvent x
    | .ussdReply _ x du => Flat x ∧ ∀ x ∈ du, flatEvent x
    | .dial n _ _ du => Flat n ∧ ∀ x ∈ du, flatEvent x
    | .dtmf _ t => Flat t
    | _ => True

/-- All deeds of a history. -/
def AllFit [PyUnicode] (env : Env) : List Deed → St → Prop
  | [], _ => True
  | d :: ds, s => Fits s d ∧ AllFit env ds (d.run env s).2

/-- The characters written, when the commands `new` were (the most recent one first). -/
def chars (new : List PyStr) : PyStr := new.reverse.flatten

/-- From the log `old` to the log `log`, the modem took exactly the commands and messages that were meant, and is
ready for the next command. -/
def TakenAsMeant (asks : List PyStr → Bool) (old log : List PyStr) : Prop :=
  ∃ new, log = new ++ old ∧ wireTakes asks old [] (chars new) = (log, []) ∧ asks log = false

end Gsm.Spec
