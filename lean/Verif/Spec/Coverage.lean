import Verif.Spec.SentSms
import Verif.Spec.Listing
/-! # Specification: waiting for network coverage -/
namespace Gsm.Spec

/-- White space of Python patterns. -/
def Spaces (s : PyStr) : Prop := ∀ c ∈ s, c = 32 ∨ (9 ≤ c ∧ c ≤ 13) ∨ (28 ≤ c ∧ c ≤ 31)

/-- A line that tells the registration status `n` (27.007, 7.2). -/
def StatusLine (line : PyStr) (n : Nat) : Prop :=
  ∃ b d t, line = py!"+CREG:" ++ b ++ [d] ++ py!"," ++ [48 + n] ++ t ∧ Spaces b ∧ 48 ≤ d ∧ d ≤ 57 ∧ n ≤ 9 ∧ (t = [] ∨ t = [10])

/-- The status an answer tells: that of its first such line. -/
def Tells (ls : List PyStr) (n : Nat) : Prop :=
  ∃ pre line post, ls = pre ++ line :: post ∧ StatusLine line n ∧ ∀ l ∈ pre, ∀ m, ¬ StatusLine l m

/-- The answer tells no status. -/
def TellsNothing (ls : List PyStr) : Prop := ∀ l ∈ ls, ∀ m, ¬ StatusLine l m

/-- A line that tells the signal strength `n` (27.007, 8.5). -/
def SignalLine (line : PyStr) (n : Nat) : Prop := ∃ b ds t, line = py!"+CSQ:" ++ b ++ ds ++ py!"," ++ t ∧ Spaces b ∧ Digits ds ∧ decVal ds = n

def cregCmd : PyStr := py!"AT+CREG?\r"
def csqCmd : PyStr := py!"AT+CSQ\r"

/-- The answer to the last command. -/
def Answer (reply : List PyStr → Reply) (log : List PyStr) (P : List PyStr → Prop) : Prop := ∃ ls, reply log = .lines ls ∧ ls ≠ [] ∧ P ls

/-- `k` queries of the registration, each answered with a status other than 0, 1, 3 and 5. -/
def Searching (reply : List PyStr → Reply) (old : List PyStr) (k : Nat) : Prop :=
  ∀ i < k, Answer reply (List.replicate (i + 1) cregCmd ++ old) fun ls => ∃ n, Tells ls n ∧ n ≠ 0 ∧ n ≠ 1 ∧ n ≠ 3 ∧ n ≠ 5

/-- The last answer is that the modem is registered (at home or roaming), or it tells no status. -/
def Registered (reply : List PyStr → Reply) (log : List PyStr) : Prop :=
  Answer reply log fun ls => Tells ls 1 ∨ Tells ls 5 ∨ TellsNothing ls

/-- The last answer is that the modem is not going to be registered. -/
def Refused (reply : List PyStr → Reply) (log : List PyStr) : Prop := Answer reply log fun ls => Tells ls 0 ∨ Tells ls 3

/-- The last answer tells the signal strength `n`. -/
def Signal (reply : List PyStr → Reply) (log : List PyStr) (n : Nat) : Prop := ∃ l ls, reply log = .lines (l :: ls) ∧ SignalLine l n

/-- `j` accepted queries of the signal strength, each answered with 0 or 99 (not known). -/
inductive NoSignal (reply : List PyStr → Reply) : Nat → List PyStr → List PyStr → Prop
  | none {log} : NoSignal reply 0 log log
  | next {j a b c n} : Transmission reply [csqCmd] a b true → Signal reply b n → (n = 0 ∨ n = 99) → NoSignal reply j b c → NoSignal reply (j + 1) a c

/-- How a wait ends. -/
inductive Outcome
  | strength (n : Nat)
  | timedOut
  | refused
  | failed
  deriving DecidableEq

/-- A wait of at most `rounds` queries, from a log to a log. -/
inductive Wait (reply : List PyStr → Reply) (rounds : Nat) (old : List PyStr) : List PyStr → Outcome → Prop
  /-- The time is over while the modem is searching. -/
  | searching : Searching reply old rounds → Wait reply rounds old (List.replicate rounds cregCmd ++ old) .timedOut
  /-- It will not be registered. -/
  | refused {k} : k < rounds → Searching reply old k → Refused reply (List.replicate (k + 1) cregCmd ++ old) →
      Wait reply rounds old (List.replicate (k + 1) cregCmd ++ old) .refused
  /-- The query of the registration is not answered. -/
  | unanswered {k} : k < rounds → Searching reply old k → (¬ Answer reply (List.replicate (k + 1) cregCmd ++ old) fun _ => True) →
      Wait reply rounds old (List.replicate (k + 1) cregCmd ++ old) .failed
  /-- The time is over while there is no signal. -/
  | noSignal {k j log} : k + 1 + j = rounds → Searching reply old k → Registered reply (List.replicate (k + 1) cregCmd ++ old) →
      NoSignal reply j (List.replicate (k + 1) cregCmd ++ old) log → Wait reply rounds old log .timedOut
  /-- There is a signal. -/
  | signal {k j n log log'} : k + 1 + j < rounds → Searching reply old k → Registered reply (List.replicate (k + 1) cregCmd ++ old) →
      NoSignal reply j (List.replicate (k + 1) cregCmd ++ old) log → Transmission reply [csqCmd] log log' true → Signal reply log' n →
      0 < n → n ≠ 99 → Wait reply rounds old log' (.strength n)
  /-- The query of the signal strength fails. -/
  | failed {k j log log' ok} : k + 1 + j < rounds → Searching reply old k → Registered reply (List.replicate (k + 1) cregCmd ++ old) →
      NoSignal reply j (List.replicate (k + 1) cregCmd ++ old) log → Transmission reply [csqCmd] log log' ok →
      (ok = true → ∀ n, ¬ Signal reply log' n) → Wait reply rounds old log' .failed

/-- The result of the method with this outcome. -/
def Outcome.Result : Outcome → Except PyErr Int → Prop
  | .strength n, r => r = .ok (n : Int)
  | .timedOut, r => r = .error (.timeout none)
  | .refused, r => r = .error .invalidState
  | .failed, r => ∃ e, r = .error e ∧ e ≠ .invalidState

end Gsm.Spec
