import Verif.Model.ModemCalls
import Verif.Spec.Modem
/-! # Specification: calls -/
namespace Gsm.Spec

/-- The table of active calls: ids are not repeated, and every entry leads to an active call with this id. -/
def TableOk (s : St) : Prop :=
  (s.activeCalls.map (·.1)).Nodup ∧ ∀ k i, (k, i) ∈ s.activeCalls → ∃ c, s.calls[i]? = some c ∧ c.id = k ∧ c.active = true

/-- The call object `i` is in the table. -/
def InTable (s : St) (i : Nat) : Prop := ∃ k, (k, i) ∈ s.activeCalls

/-- The ids in the table are 1 to their number. -/
def Contiguous (s : St) : Prop :=
  (s.activeCalls.map (·.1)).Nodup ∧ ∀ k : Int, k ∈ s.activeCalls.map (·.1) ↔ 1 ≤ k ∧ k ≤ s.activeCalls.length

/-- The command for tones: one part for each of them, separated by semicolons. -/
def dtmfText (base tones : PyStr) : PyStr := py!"AT" ++ List.intercalate py!";" (tones.map fun t => base ++ [t])

/-- The parts: `^DTMF=id,` on Huawei modems, otherwise `+VTS=`. -/
def dtmfPart (huawei : Bool) (id : Int) : PyStr := if huawei then py!"^DTMF=" ++ intStr id ++ py!"," else py!"+VTS="

/-- The result: errors 3 and 30 mean that the call was interrupted. -/
def toneResult {α : Type} : Except PyErr α → Except PyErr Unit
  | .ok _ => .ok ()
  | .error e =>
    if e = errorFor py!"CME" 3 then .error (.interrupted 3)
    else if e = errorFor py!"CME" 30 then .error (.interrupted 30)
    else .error e

end Gsm.Spec
