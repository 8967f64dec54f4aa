/-! # Specification: hexadecimal notation -/
namespace Gsm.Spec

/-- `0-9`, `A-F`, `a-f`. -/
def IsHexChar (c : Nat) : Prop := (48 ≤ c ∧ c ≤ 57) ∨ (65 ≤ c ∧ c ≤ 70) ∨ (97 ≤ c ∧ c ≤ 102)

/-- The character `c` is the hexadecimal digit of value `v`, in either case. -/
def HexDigit (v c : Nat) : Prop :=
  (v < 10 ∧ c = 48 + v) ∨ (10 ≤ v ∧ v < 16 ∧ (c = 65 + (v - 10) ∨ c = 97 + (v - 10)))

/-- `HexOf os s`: the string `s` writes the octets `os` in hexadecimal, two digits each. -/
inductive HexOf : List Nat → List Nat → Prop
  | nil : HexOf [] []
  | cons {o os a b s} : HexDigit (o / 16) a → HexDigit (o % 16) b → HexOf os s → HexOf (o :: os) (a :: b :: s)

end Gsm.Spec
