import Verif.Model.ThreadConnect
import Verif.Spec.DialExamples
import Verif.Spec.ModemLog
/-! # Specification: connecting while other threads are at work -/
namespace Gsm.Spec
open List

/-- The activity, run without other threads. -/
def activityAlone [PyUnicode] : Activity → M Unit
  | .task t => taskAlone t
  | .connect pin => Gsm.connect pin

/-- The activities one after the other. -/
def activitiesSerially [PyUnicode] (env : Env) : List Activity → St → List (Except PyErr Unit) × St
  | [], s => ([], s)
  | x :: xs, s => ((activityAlone x env s).1 :: (activitiesSerially env xs (activityAlone x env s).2).1, (activitiesSerially env xs (activityAlone x env s).2).2)

/-- Like `CallsGrow`, but the settings of the modem may change. -/
structure CallsKept (a b : St) : Prop where
  grows : Grows a b
  table : TableKeyed a → TableKeyed b
  calls : ∀ (i : Nat) (c : CallObj), a.calls[i]? = some c → ∃ c', b.calls[i]? = some c' ∧ SameCall c c'
  removed : ∀ i, i < a.calls.length → ¬ InTable a i → ¬ InTable b i

/-- The PIN is submitted at most once, or again after the modem said that it is busy, and only directly after the modem said that it is not ready. -/
def PinOnce (pin : Option PyStr) (tr : List (PyStr × Reply)) : Prop :=
  (∀ x ∈ tr, ¬ SubmitsPin x.1) ∨
  ∃ p before r submissions after, pin = some p ∧ tr = before ++ (py!"AT+CPIN?\r", r) :: submissions ++ after ∧ NotReady r ∧
    (∀ x ∈ submissions, x.1 = py!"AT+CPIN=\"" ++ p ++ py!"\"\r") ∧ (∀ x ∈ submissions.dropLast, SaysBusy x.2) ∧
    (∀ x ∈ before, ¬ SubmitsPin x.1) ∧ ∀ x ∈ after, ¬ SubmitsPin x.1

/-- The memory that the command makes the one for reading and deleting: the first after `AT+CPMS=`. -/
def memoryIn (c : PyStr) : Option PyStr :=
  if py!"AT+CPMS=\"" <+: c then some ((c.drop 9).takeWhile (· ≠ 34)) else none

/-- The memory that the last such command has selected. -/
def memoryOf : List PyStr → Option PyStr
  | [] => none
  | c :: cs => match memoryIn c with
    | some m => some m
    | none => memoryOf cs

/-- The mode that the last command `AT+CMGF=` has selected. -/
def modeOf : List PyStr → Option PyStr
  | [] => none
  | c :: cs => if py!"AT+CMGF=" <+: c then some ((c.drop 8).dropLast) else modeOf cs

end Gsm.Spec
