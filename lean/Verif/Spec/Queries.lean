import Verif.Spec.Incoming
import Verif.Spec.Coverage
/-! # Specification: questions about the modem and the network -/
namespace Gsm.Spec

/-- A line that names the network (27.007, 7.3): mode, format, name, and perhaps the kind of network. -/
def CopsLine (line name : PyStr) : Prop :=
  ∃ m f comma act t, line = py!"+COPS: " ++ (m :: (py!"," ++ (f :: (py!",\"" ++ (name ++ (py!"\"" ++ (comma ++ (act ++ t)))))))) ∧
    (48 ≤ m ∧ m ≤ 57) ∧ (48 ≤ f ∧ f ≤ 57) ∧ name ≠ [] ∧ 10 ∉ name ∧ (comma = [] ∨ comma = [44]) ∧ (∀ c ∈ act, 48 ≤ c ∧ c ≤ 57) ∧ LineEnd t

/-- The first line that names the network, if any. -/
inductive FirstOperator : List PyStr → Option PyStr → Prop
  | none {ls} : (∀ l ∈ ls, ∀ name, ¬ CopsLine l name) → FirstOperator ls none
  | some {a l b name} : (∀ l ∈ a, ∀ name, ¬ CopsLine l name) → CopsLine l name → FirstOperator (a ++ l :: b) (some name)

/-- The signal strength: 99 means unknown. -/
def strength (n : Nat) : Int := if n = 99 then -1 else n

/-- A question is answered: what is written, and what is returned when the answer is `ls`. -/
def Asks {α : Type} (env : Env) (command : PyStr) (m : M α) (result : List PyStr → Except PyErr α → Prop) : Prop :=
  ∀ s, ∃ ok l w, Transmission env.reply [command] s.log l ok ∧ (m env s).2 = { s with log := l, writeWait := w } ∧
    (ok = true → ∃ ls, env.reply l = .lines ls ∧ ls ≠ [] ∧ result ls (m env s).1) ∧ (ok = false → ∃ e, (m env s).1 = .error e)

end Gsm.Spec
