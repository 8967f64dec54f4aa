/-! # Specification: telephone numbers and trimmed texts -/
namespace Gsm

/-- Decimal digit characters. -/
def IsDigits (s : List Nat) : Prop := ∀ c ∈ s, 48 ≤ c ∧ c ≤ 57

instance (s : List Nat) : Decidable (IsDigits s) := by unfold IsDigits; infer_instance

namespace Spec

/-- A telephone number with digits `ds`: local (`ds`) or international (`+` followed by `ds`). -/
inductive Phone : List Nat → List Nat → Prop
  | loc {ds} : IsDigits ds → ds ≠ [] → Phone ds ds
  | intl {ds} : IsDigits ds → ds ≠ [] → Phone (43 :: ds) ds

end Spec

/-- What remains of a GSM-7 text whose septets were packed in such a way that a final zero septet
('@', code point 64) is indistinguishable from padding (`onBoundary`). -/
def trimAt (onBoundary : Prop) [Decidable onBoundary] (t : List Nat) : List Nat :=
  if onBoundary ∧ t.getLast? = some 64 then t.dropLast else t

end Gsm
