/-!
# Specification: the GSM 03.38 alphabets

Written from the standard's tables (GSM 03.38, 6.2.1 and 6.2.1.1), not from the code.
-/
namespace Gsm.Spec

/-- Default alphabet, septet value -> Unicode code point, given row by row (16 per row).
Position 0x1B is the escape to the extension table. Position 0x5F is the section sign. -/
def gsmRow : Nat → List Nat
  | 0 => "@£$¥èéùìòÇ\nØø\rÅå".toList.map Char.toNat
  | 1 => "Δ_ΦΓΛΩΠΨΣΘΞ".toList.map Char.toNat ++ [0x1B] ++ "ÆæßÉ".toList.map Char.toNat
  | 2 => " !\"#¤%&'()*+,-./".toList.map Char.toNat
  | 3 => "0123456789:;<=>?".toList.map Char.toNat
  | 4 => "¡ABCDEFGHIJKLMNO".toList.map Char.toNat
  | 5 => "PQRSTUVWXYZÄÖÑÜ§".toList.map Char.toNat
  | 6 => "¿abcdefghijklmno".toList.map Char.toNat
  | _ => "pqrstuvwxyzäöñüà".toList.map Char.toNat

/-- Character of a septet of the default alphabet. -/
def gsmChar (s : Nat) : Option Nat := (gsmRow (s / 16))[s % 16]?

/-- Character of a septet following the escape (form feed at 0x0A). -/
def gsmExtChar : Nat → Option Nat
  | 0x0A => some 0x0C
  | 0x14 => some '^'.toNat
  | 0x28 => some '{'.toNat
  | 0x29 => some '}'.toNat
  | 0x2F => some '\\'.toNat
  | 0x3C => some '['.toNat
  | 0x3D => some '~'.toNat
  | 0x3E => some ']'.toNat
  | 0x40 => some '|'.toNat
  | 0x65 => some '€'.toNat
  | _ => none

/-- `code` is a septet sequence that the standard reads as the single character `c`. -/
def Reads (c : Nat) (code : List Nat) : Prop :=
  (∃ s < 128, s ≠ 0x1B ∧ code = [s] ∧ gsmChar s = some c) ∨
  (∃ s < 128, code = [0x1B, s] ∧ gsmExtChar s = some c)

/-- `ReadsText t code`: the standard reads the septets `code` as the text `t`. -/
inductive ReadsText : List Nat → List Nat → Prop
  | nil : ReadsText [] []
  | cons {c t code codes} : Reads c code → ReadsText t codes → ReadsText (c :: t) (code ++ codes)

/-- Characters the library is meant to accept for GSM-7: those of the two tables, except that the
section sign and the form feed are not supported while the grave accent is. -/
def Encodable (c : Nat) : Prop :=
  (∃ s < 128, gsmChar s = some c ∧ c ≠ 0xA7) ∨
  (∃ s < 128, gsmExtChar s = some c ∧ c ≠ 0x0C) ∨
  c = 0x60

end Gsm.Spec
