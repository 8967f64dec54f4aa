import Verif.Model.Modem
import Verif.Spec.Modem
/-! # Specification: what the modem accepted

A log lists the commands written, the most recent one first; `reply` is the behaviour of the modem. -/
namespace Gsm.Spec

/-- The modem's answer to the most recent command of the log is positive. -/
def Accepted (reply : List PyStr → Reply) (log : List PyStr) : Prop :=
  ∃ ls line, reply log = .lines ls ∧ ls.getLast? = some line ∧ ¬ py!"ERROR" <:+: line ∧ line ≠ py!"COMMAND NOT SUPPORT"

/-- The modem's answer to the most recent command of the log is that it is busy. -/
def AnsweredBusy (reply : List PyStr → Reply) (log : List PyStr) : Prop :=
  ∃ n ls line, reply log = .lines ls ∧ ls.getLast? = some line ∧ Busy n line

/-- `LastAccepted reply P log c`: the last accepted command of kind `P` is `c`. -/
inductive LastAccepted (reply : List PyStr → Reply) (P : PyStr → Prop) : List PyStr → PyStr → Prop
  | here {c log} : P c → Accepted reply (c :: log) → LastAccepted reply P (c :: log) c
  | there {c log d} : ¬ (P c ∧ Accepted reply (c :: log)) → LastAccepted reply P log d → LastAccepted reply P (c :: log) d

/-- A command that selects the SMS mode (0: PDU, 1: text). -/
def SelectsMode (c : PyStr) : Prop := c = py!"AT+CMGF=0\r" ∨ c = py!"AT+CMGF=1\r"

/-- The command that selects this mode. -/
def modeCmd (text : Bool) : PyStr := if text then py!"AT+CMGF=1\r" else py!"AT+CMGF=0\r"

/-- A command that selects memories (not the query of the supported ones). -/
def SelectsMemory (c : PyStr) : Prop := py!"AT+CPMS=" <+: c ∧ [13] <:+ c ∧ c ≠ py!"AT+CPMS=?\r"

/-- The command that selects the memory `m` for reading and deleting. -/
def memoryCmd (m : PyStr) : PyStr := py!"AT+CPMS=\"" ++ m ++ py!"\"\r"

/-- A command that sets the number of the SMS centre, or parameters of messages: some modems forget the
number of the SMS centre when the latter are set. -/
def AffectsSmsc (c : PyStr) : Prop := (py!"AT+CSCA=" <+: c ∨ py!"AT+CSMP=" <+: c) ∧ [13] <:+ c

/-- A command that reads, lists or deletes stored messages. -/
def UsesMemory (c : PyStr) : Prop := py!"AT+CMGR=" <+: c ∨ py!"AT+CMGL=" <+: c ∨ py!"AT+CMGD=" <+: c

/-- Every command that uses the memory, among those written after `old`, was written when `x` was the last
accepted selection. -/
def UsedOnlyWith (reply : List PyStr → Reply) (x : PyStr) (old log : List PyStr) : Prop :=
  ∃ new, log = new ++ old ∧
    ∀ l1 c l2, new = l1 ++ c :: l2 → UsesMemory c → LastAccepted reply SelectsMemory (l2 ++ old) x

/-- A command that submits a PIN. -/
def SubmitsPin (c : PyStr) : Prop := py!"AT+CPIN=\"" <+: c

/-- The first line that starts with `+CPIN`. -/
def cpinLine (ls : List PyStr) : Option PyStr := ls.find? fun l => py!"+CPIN".isPrefixOf l

/-- The answer to `AT+CPIN?` is not `READY`. Some modems do not end this answer, so that the command
times out. -/
def NotReady : Reply → Prop
  | .lines ls => cpinLine ls ≠ some py!"+CPIN: READY"
  | .timeout (some ls) => ∃ l, cpinLine ls = some l ∧ l ≠ py!"+CPIN: READY"
  | .timeout none => False

/-- The answer says `READY`. -/
def SaysReady : Reply → Prop
  | .lines ls => cpinLine ls = some py!"+CPIN: READY"
  | .timeout (some ls) => cpinLine ls = some py!"+CPIN: READY"
  | .timeout none => False

end Gsm.Spec
