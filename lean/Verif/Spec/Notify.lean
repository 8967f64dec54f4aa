import Verif.Model.ModemCalls
import Verif.Spec.Listing
/-! # Specification: notifications and USSD results -/
namespace Gsm.Spec

/-- What a line announces; the tests are tried in this order. The last ones depend on the modem (`table`). -/
inductive Announces (table : List (List Rx × CallHandler)) : PyStr → Dispatch → Prop
  | ring {l} : py!"RING" <:+: l → Announces table l .ring
  | message {l} : ¬ py!"RING" <:+: l → py!"+CMTI" <+: l → Announces table l .cmti
  | ussd {l} : ¬ py!"RING" <:+: l → py!"+CUSD" <+: l → Announces table l .cusd
  | report {l} : ¬ py!"RING" <:+: l → py!"+CDSI" <+: l → Announces table l .cdsi
  | call {l before rx h after g} : ¬ py!"RING" <:+: l → ¬ py!"+CMTI" <+: l → ¬ py!"+CUSD" <+: l → ¬ py!"+CDSI" <+: l →
      table = before ++ (rx, h) :: after → (∀ x ∈ before, rxGroups x.1 l = none) → rxGroups rx l = some g →
      Announces table l (.call h g)

/-- A result of a USSD operation: the status and the message. -/
structure UssdResult where
  blanks : PyStr
  status : Nat
  message : PyStr
  coding : PyStr

/-- The message does not look like the end of a result. -/
def UssdResult.Ok (r : UssdResult) : Prop :=
  Blanks r.blanks ∧ (48 ≤ r.status ∧ r.status ≤ 57) ∧ (∀ a b d, r.message = a ++ 34 :: 44 :: d :: b → ¬ (48 ≤ d ∧ d ≤ 57)) ∧ Digits r.coding

def UssdResult.text (r : UssdResult) : PyStr :=
  py!"+CUSD:" ++ r.blanks ++ [r.status] ++ py!",\"" ++ r.message ++ py!"\"," ++ r.coding

/-- A text with these results, and other text without plus signs before, between and after them. -/
inductive UssdText : PyStr → List UssdResult → Prop
  | done {junk} : 43 ∉ junk → UssdText junk []
  | next {junk r rest rs} : 43 ∉ junk → r.Ok → (∀ c, rest.head? = some c → ¬ (48 ≤ c ∧ c ≤ 57)) → UssdText rest rs →
      UssdText (junk ++ r.text ++ rest) (r :: rs)

/-- The message of the last result that does not just release the session (status 2). -/
def ussdMessage (rs : List UssdResult) : Option PyStr := ((rs.filter fun r => r.status ≠ 50).getLast?).map (·.message)

/-- The session is open: all have status 1. -/
def ussdOpen (rs : List UssdResult) : Bool := rs.all fun r => r.status = 49

end Gsm.Spec
