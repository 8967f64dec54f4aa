import Verif.Model.Py
/-! # Specification: what the answer of a modem means -/
namespace Gsm

/-- Value of a digit string. -/
def decVal (s : List Nat) : Nat := s.foldl (fun a c => a * 10 + (c - 48)) 0

namespace Spec

/-- `line` is `+CME ERROR: ds` or `+CMS ERROR: ds` (a line feed may follow). -/
def IsCmError (ty ds line : List Nat) : Prop :=
  (ty = py!"CME" ∨ ty = py!"CMS") ∧ ds ≠ [] ∧ (∀ c ∈ ds, 48 ≤ c ∧ c ≤ 57) ∧
    ∃ t, (t = [] ∨ t = [10]) ∧ line = py!"+" ++ ty ++ py!" ERROR: " ++ ds ++ t

/-- The exception for error `n` of kind `ty`. -/
def errorFor (ty : List Nat) (n : Nat) : PyErr :=
  if ty = py!"CME" then
    .command (match n with | 11 => .pinRequired | 12 => .pukRequired | 16 => .incorrectPin | _ => .cme) (some n)
  else .command (match n with | 330 => .smscUnknown | _ => .cms) (some n)

/-- The line says that the modem is busy (error 515) or that the SIM is busy (error 14). -/
def Busy (n : Nat) (line : List Nat) : Prop := (n = 515 ∨ n = 14) ∧ ∃ ty ds, IsCmError ty ds line ∧ decVal ds = n

/-- `ResponseMeans ls r`: the response `ls`, which does not say that the modem is busy, means `r`. -/
inductive ResponseMeans : List (List Nat) → Except PyErr (List (List Nat)) → Prop
  | fine {ls line} : ls.getLast? = some line → ¬ py!"ERROR" <:+: line → line ≠ py!"COMMAND NOT SUPPORT" → ResponseMeans ls (.ok ls)
  | notSupported {ls} : ls.getLast? = some py!"COMMAND NOT SUPPORT" → ResponseMeans ls (.error (.command .command none))
  | code {ls line ty ds} : ls.getLast? = some line → IsCmError ty ds line → decVal ds ≠ 515 → decVal ds ≠ 14 →
      ResponseMeans ls (.error (errorFor ty (decVal ds)))
  | plain {ls line} : ls.getLast? = some line → py!"ERROR" <:+: line → (∀ ty ds, ¬ IsCmError ty ds line) →
      ResponseMeans ls (.error (.command .command none))

end Spec
end Gsm
