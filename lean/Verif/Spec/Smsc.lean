import Verif.Spec.ModemLog
import Verif.Spec.Coverage
/-! # Specification: the number of the SMS centre -/
namespace Gsm.Spec

/-- The command that sets this number. -/
def smscCmd (n : PyStr) : PyStr := py!"AT+CSCA=\"" ++ n ++ py!"\"\r"

/-- The line tells the number `n`: `+CSCA: "n",type`. -/
def TellsNumber (line n : PyStr) : Prop :=
  ∃ a ds t, line = py!"+CSCA:" ++ (a ++ (py!"\"" ++ (n ++ (py!"\"," ++ (ds ++ t))))) ∧ Spaces a ∧ n ≠ [] ∧ 44 ∉ n ∧
    Digits ds ∧ (t = [] ∨ t = [10])

/-- The first line that tells a number tells `n`. -/
def TellsFirst (ls : List PyStr) (n : PyStr) : Prop :=
  ∃ before line after, ls = before ++ line :: after ∧ TellsNumber line n ∧ ∀ l ∈ before, ∀ m, ¬ TellsNumber l m

/-- `n` is the number of the SMS centre that the modem has accepted or told, and nothing has been accepted since
that affects it. -/
inductive SmscIs (reply : List PyStr → Reply) : List PyStr → PyStr → Prop
  | set {n log} : Accepted reply (smscCmd n :: log) → SmscIs reply (smscCmd n :: log) n
  | told {n ls log} : reply (py!"AT+CSCA?\r" :: log) = .lines ls → Accepted reply (py!"AT+CSCA?\r" :: log) → TellsFirst ls n →
      SmscIs reply (py!"AT+CSCA?\r" :: log) n
  | keep {n c log} : ¬ (AffectsSmsc c ∧ Accepted reply (c :: log)) → SmscIs reply log n → SmscIs reply (c :: log) n

end Gsm.Spec
