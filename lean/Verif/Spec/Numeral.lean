import Verif.Spec.Listing
import Verif.Spec.Connect
/-! # Whole numbers as texts: what `int` reads, and the answer to a sent message -/
namespace Gsm.Spec

/-- Groups of digits with an underscore between them. -/
def DigitGroups (first : PyStr) (rest : List PyStr) : PyStr := first ++ rest.flatMap fun g => 95 :: g

/-- The text `s` is the whole number `v`: blanks, a sign, groups of digits, blanks (Python Language
Reference, 2.4.5, and the documentation of `int`). -/
def Numeral (s : PyStr) (v : Int) : Prop :=
  ∃ a sign first rest b, s = a ++ sign ++ DigitGroups first rest ++ b ∧
    (∀ c ∈ a, c = 32 ∨ (9 ≤ c ∧ c ≤ 13)) ∧ (∀ c ∈ b, c = 32 ∨ (9 ≤ c ∧ c ≤ 13)) ∧
    Digits first ∧ (∀ g ∈ rest, Digits g) ∧
    ((sign = [] ∨ sign = [43]) ∧ v = (decVal (first ++ rest.flatten) : Int) ∨
      sign = [45] ∧ v = -(decVal (first ++ rest.flatten) : Int))

/-- The answer to a message (27.005, 3.5.1 and 4.3): `+CMGS: <mr>`, and possibly the time stamp of the
message centre or its acknowledgement. -/
inductive CmgsAnswer : PyStr → Nat → Option PyStr → Prop
  | plain {ds : PyStr} : Digits ds → CmgsAnswer (py!"+CMGS: " ++ ds) (decVal ds) none
  | details {ds t : PyStr} : Digits ds → CmgsAnswer (py!"+CMGS: " ++ ds ++ py!"," ++ t) (decVal ds) (some t)

end Gsm.Spec
