import Verif.Spec.Modes
import Verif.Spec.Relay
import Verif.Spec.Sendable
/-! # Specification: to whom an answer goes

In an address field the type of the address tells numbers from names, and international numbers from others. -/
namespace Gsm.Spec

/-- The field has a name. -/
def NameField (a : List Nat) : Prop := ∃ len toa ud, a = len :: toa :: ud ∧ toa / 16 % 8 = 5

/-- The two fields stand for the same: the same digits, both of them international or neither, or the octets of the same name. -/
inductive SameParty : List Nat → List Nat → Prop
  | number {ds toa toa'} : toa / 16 % 8 ≠ 5 → toa' / 16 % 8 ≠ 5 → (toa / 16 % 8 = 1 ↔ toa' / 16 % 8 = 1) → IsDigits ds → ds ≠ [] →
      SameParty (ds.length :: toa :: bcd ds) (ds.length :: toa' :: bcd ds)
  | name {len len' toa toa' ud} : toa / 16 % 8 = 5 → toa' / 16 % 8 = 5 → (len + 1) / 2 = ud.length → (len' + 1) / 2 = ud.length →
      SameParty (len :: toa :: ud) (len' :: toa' :: ud)

/-- What looks like a number. -/
def LooksLikeNumber [PyUnicode] (s : PyStr) : Prop := AllDigits s ∨ ∃ r, s = 43 :: r ∧ AllDigits r

/-- The field that a modem makes of a number in text mode (27.005: the type of the address is 145 if it begins with `+`, otherwise 129). -/
def DialledInText (s : PyStr) (da : List Nat) : Prop :=
  ∃ ds, IsDigits ds ∧ ds ≠ [] ∧ (s = 43 :: ds ∧ da = ds.length :: 0x91 :: bcd ds ∨ s = ds ∧ da = ds.length :: 0x81 :: bcd ds)

end Gsm.Spec
