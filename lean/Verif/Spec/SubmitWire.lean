import Verif.Model.Pdu
import Verif.Spec.Deliver
import Verif.Spec.Validity
/-! # Specification: an SMS-SUBMIT of any origin (GSM 03.40, 9.2.2.2) -/
namespace Gsm.Spec

/-- The validity period by its format (bits 4 and 3 of the first octet): none, relative, absolute. Format 1 (enhanced) has seven octets too. -/
inductive VpWire : Nat → DecodedValidity → List Nat → Prop
  | none : VpWire 0 .absent []
  | relative {x} : x < 256 → VpWire 2 (.relative (.ofSeconds (vpSeconds x))) [x]
  | absolute {d ts} : TsWire d ts → VpWire 3 (.absolute d) ts

/-- An SMS-SUBMIT with its service centre address. -/
def submitWire (sca : List Nat) (fo mr : Nat) (da : List Nat) (pid dcs : Nat) (vp : List Nat) (udl : Nat) (ud : List Nat) : List Nat :=
  sca ++ (fo :: mr :: da ++ pid :: dcs :: vp ++ udl :: ud)

end Gsm.Spec
