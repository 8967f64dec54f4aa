import Verif.Model.Py
import Verif.Spec.Address
import Verif.Spec.Gsm0338
import Verif.Spec.Submit
/-! # Specification: which messages have a PDU -/
namespace Gsm.Spec

/-- Septets a character takes: two if it is in the extension table. -/
def septetCost (c : Nat) : Nat := if (List.range 128).any (fun s => gsmExtChar s == some c) then 2 else 1

/-- Septets a text takes. -/
def septetCount (t : List Nat) : Nat := (t.map septetCost).sum

/-- A string Python takes for digits, each having a decimal value (superscripts have none). -/
def ValuedDigits [PyUnicode] (ds : List Nat) : Prop :=
  ds ≠ [] ∧ ∀ c ∈ ds, PyUnicode.isdigit c = true ∧ (PyUnicode.decimal c).isSome

/-- A string Python takes for digits. -/
def AllDigits [PyUnicode] (ds : List Nat) : Prop := ds ≠ [] ∧ ∀ c ∈ ds, PyUnicode.isdigit c = true

/-- Addresses that fit an address field: at most 255 digits (508 in a service centre field, whose
length counts octets), or a name of at most 145 septets. -/
inductive Addressable [PyUnicode] (smsc : Bool) : List Nat → Prop
  | loc {ds} : ValuedDigits ds → ds.length ≤ (if smsc then 508 else 255) → Addressable smsc ds
  | intl {ds} : ValuedDigits ds → ds.length ≤ (if smsc then 508 else 255) → Addressable smsc (43 :: ds)
  | name {a} : a ≠ [] → ¬ AllDigits a → (∀ ds, a = 43 :: ds → ¬ AllDigits ds) → (∀ c ∈ a, Encodable c) →
      septetCount a ≤ 145 → Addressable smsc a

/-- Texts that some sequence of messages can carry. -/
inductive Carried : List Nat → Prop
  | short {t} : t ≠ [] → (∀ c ∈ t, Encodable c) → t.length ≤ 160 → septetCount t ≤ 255 → Carried t
  | parts {t} : (∀ c ∈ t, Encodable c) → 160 < t.length → t.length < 255 * 160 →
      (∀ i ≤ t.length / 160, septetCount ((t.drop (i * 153)).take 153) ≤ 248) → Carried t
  | wideShort {pre c post} : (∀ x ∈ pre, Encodable x) → ¬ Encodable c → c ≠ 0xFF →
      (pre ++ c :: post).length ≤ 70 → (∀ x ∈ pre ++ c :: post, x < 65536) → Carried (pre ++ c :: post)
  | wideParts {pre c post} : (∀ x ∈ pre, Encodable x) → ¬ Encodable c → c ≠ 0xFF →
      70 < (pre ++ c :: post).length → (pre ++ c :: post).length < 255 * 70 →
      (∀ x ∈ (pre ++ c :: post).take (((pre ++ c :: post).length / 70 + 1) * 67), x < 65536) →
      Carried (pre ++ c :: post)

/-- An optional service centre: none, an empty one, or one that fits. -/
def SmscFits [PyUnicode] (smsc : Option (List Nat)) : Prop := ∀ s, smsc = some s → s ≠ [] → Addressable true s

end Gsm.Spec
