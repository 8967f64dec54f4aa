import Verif.Model.Forget
/-! # Specification: what forgetting a message may change -/
namespace Gsm.Spec

/-- What was done, without the forgetting. -/
def deedsLeft : List WeakStep → List Deed
  | [] => []
  | .deed d :: hs => d :: deedsLeft hs
  | .forget _ :: hs => deedsLeft hs

/-- The messages that were forgotten. -/
def forgottenIn : List WeakStep → List Nat
  | [] => []
  | .deed _ :: hs => forgottenIn hs
  | .forget i :: hs => i :: forgottenIn hs

/-- A message without its report. -/
def Unreported (x : Sent) : Sent := { x with report := none }

/-- A modem on which the messages `gone` were forgotten, and one on which they were not: only the entries and the
reports of these messages differ. -/
structure SameBut (gone : List Nat) (a b : St) : Prop where
  rest : { a with sent := [], sentSms := [] } = { b with sent := [], sentSms := [] }
  messages : a.sent.map Unreported = b.sent.map Unreported
  reports : ∀ i, i ∉ gone → a.sent[i]? = b.sent[i]?
  entries : ∀ r, dictGet a.sentSms r = dictGet b.sentSms r ∨ dictGet a.sentSms r = none ∧ ∃ i ∈ gone, dictGet b.sentSms r = some i

/-- No reference has two entries. -/
def OneEntry (s : St) : Prop := (s.sentSms.map Prod.fst).Nodup

end Gsm.Spec
