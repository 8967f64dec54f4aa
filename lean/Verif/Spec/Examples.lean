import Verif.Model.Examples
import Verif.Spec.Relay
/-! # Specification: a program that answers messages -/
namespace Gsm.Spec

/-- A text whose beginning can be quoted in an answer. -/
def Quotes (text : PyStr) : Prop := ∀ c ∈ text.take 20, c < 65536 ∧ c ≠ 27 ∧ c ≠ 255

/-- A program sms_handler_demo.py in PDU mode is told that its modem has stored the PDU `m`, which has come from `sender`; it handles this without an exception, and meanwhile its modem takes over `new`. -/
structure Handled [PyUnicode] (m : PyStr) (sender : PyStr) (new : List PyStr) : Prop where
  run : ∃ (octets os : List Nat) (smsc : Option PyStr) (time : DateTime) (env : Env) (b b' : St) (line mem idx status : PyStr) (ms : List PyStr),
    HexOf octets m ∧ Relayed octets smsc (some sender) time os ∧ 0 < env.depth ∧ b.smsTextMode = false ∧ 0 ≤ b.smsRef ∧ b.smsRef < 256 ∧
    StoredAt py!"+CMTI:" line mem idx ∧ Stores env.reply b mem idx status os ∧ smsDemo line env b = (.ok (), b') ∧
    TakenOver env.reply b.log ms ∧ TakenOver env.reply b'.log (ms ++ new)

/-- One of the messages is answered, then the answer is answered, and so on. -/
inductive Correspondence [PyUnicode] : Nat → PyStr → PyStr → Prop
  | nothing {m} : Correspondence 0 m m
  | more {k m m' m'' sender digits} : Correspondence k m m' → Phone sender digits → digits.length ≤ 255 → Handled m' sender [m''] → Correspondence (k + 1) m m''

/-- What the answers become. -/
def echo : PyStr := py!"SMS received: \"SMS received: \"SMS r...\""

end Gsm.Spec
