import Verif.Spec.Notify
import Verif.Spec.Coverage
import Verif.Spec.SentSms
/-! # Specification: USSD results in any text, and waiting for one -/
namespace Gsm.Spec

/-- No quote in the message is followed by a comma and a digit. -/
def NoEnd (message : PyStr) : Prop := ∀ a b d, message = a ++ 34 :: 44 :: d :: b → ¬ (48 ≤ d ∧ d ≤ 57)

/-- The text begins with a result (27.007, 7.15), after which there is `rest`. -/
def UssdAt (text : PyStr) (status : Nat) (message rest : PyStr) : Prop :=
  ∃ b coding, text = py!"+CUSD:" ++ (b ++ (status :: (py!",\"" ++ (message ++ (py!"\"," ++ (coding ++ rest)))))) ∧ Spaces b ∧
    (48 ≤ status ∧ status ≤ 57) ∧ NoEnd message ∧ Digits coding ∧ (∀ c, rest.head? = some c → ¬ (48 ≤ c ∧ c ≤ 57))

/-- The results in a text, one after the other: status and message. -/
inductive UssdIn : PyStr → List (Nat × PyStr) → Prop
  | done {text} : (∀ a b st m r, text = a ++ b → ¬ UssdAt b st m r) → UssdIn text []
  | next {junk text st m r rs} : (∀ a b st m r, junk = a ++ b → b ≠ [] → ¬ UssdAt (b ++ text) st m r) → UssdAt text st m r → UssdIn r rs →
      UssdIn (junk ++ text) ((st, m) :: rs)

/-- What a batch of lines means. -/
inductive UssdMeans : List PyStr → Except PyErr Ussd → Prop
  | empty : UssdMeans [] (.error .indexError)
  | line {l st m r} : UssdAt l st m r → UssdMeans [l] (.ok ⟨decide (st = 49), some m⟩)
  | noLine {l} : (∀ st m r, ¬ UssdAt l st m r) → UssdMeans [l] (.error .attributeError)
  | none {l1 l2 ls} : UssdIn ([13, 10].intercalate (l1 :: l2 :: ls)) [] → UssdMeans (l1 :: l2 :: ls) (.error .indexError)
  | one {l1 l2 ls st m} : UssdIn ([13, 10].intercalate (l1 :: l2 :: ls)) [(st, m)] → UssdMeans (l1 :: l2 :: ls) (.ok ⟨decide (st = 49), some m⟩)
  /-- the message of the last that does not release the session -/
  | several {l1 l2 ls rs} : UssdIn ([13, 10].intercalate (l1 :: l2 :: ls)) rs → 2 ≤ rs.length →
      UssdMeans (l1 :: l2 :: ls) (.ok ⟨rs.all fun r => r.1 = 49, ((rs.filter fun r => r.1 ≠ 50).getLast?).map (·.2)⟩)

/-- The answer to the command contains the result already. -/
def InAnswer (ls : List PyStr) : Prop := 2 ≤ ls.length ∧ ∃ l ∈ ls, py!"+CUSD" <+: l

/-- A batch of notifications that brings a result. -/
def BringsUssd (s : St) (u : Ussd) : Event → Prop
  | .notify batch => ∃ pre line post, batch = pre ++ line :: post ∧ (∀ l ∈ pre, ∀ d, ¬ Announces (callTable s.callStatusUpdates) l d) ∧
      Announces (callTable s.callStatusUpdates) line .cusd ∧ UssdMeans batch (.ok u)
  | .poll _ => False

/-- Waiting for the first event that brings a result. -/
inductive AwaitsUssd (env : Env) : St → List Event → St → Option Ussd → Prop
  | over {s} : AwaitsUssd env s [] s none
  | told {s e es u} : BringsUssd s u e → AwaitsUssd env s (e :: es) { s with ussdSessionEvent := some true, ussdResponse := some u } (some u)
  | other {s e es s' r} : (∀ u, ¬ BringsUssd s u e) → AwaitsUssd env (e.run env s).2 es s' r → AwaitsUssd env s (e :: es) s' r

/-- The end of the wait. -/
def ussdEnd (s : St) : Option Ussd → Except PyErr (Option Ussd) × St
  | none => (.error (.timeout none), { s with ussdSessionEvent := none })
  | some u => (.ok (some u), { s with ussdSessionEvent := none })

end Gsm.Spec
