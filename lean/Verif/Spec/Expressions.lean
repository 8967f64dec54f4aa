import Verif.Model.Expressions
import Verif.Spec.ThreadConnect
/-! # Specification: the expressions for stored messages -/
namespace Gsm.Spec
open List

/-- The expressions for the mode have been compiled. -/
def CompiledFor (textMode : Bool) (x : Lib) : Prop := if textMode then x.deliver = true ∧ x.report = true else x.pdu = true

/-- No thread is in the middle of compiling the two expressions for text mode. -/
def BothOrNone (x : Lib) : Prop := x.report = x.deliver

/-- The expressions for the present mode have been compiled. -/
def Usable (x : Lib) : Prop := CompiledFor x.st.smsTextMode x ∧ BothOrNone x

/-- The expression that the present mode needs first has not been compiled. -/
def Missing (x : Lib) : Prop := if x.st.smsTextMode then x.deliver = false else x.pdu = false

/-- No callback was called, and no command deletes a message. -/
def NothingTaken (a b : St) : Prop := b.callbacks = a.callbacks ∧ ∃ new, b.log = new ++ a.log ∧ ∀ c ∈ new, ¬ py!"AT+CMGD" <+: c

/-- The activities one after the other. -/
def seriallyWith [PyUnicode] (env : Env) : List Activity → Lib → List (Except PyErr Unit) × Lib
  | [], x => ([], x)
  | a :: as, x => ((a.comp.run env x).1 :: (seriallyWith env as (a.comp.run env x).2).1, (seriallyWith env as (a.comp.run env x).2).2)

/-- The activity changes the mode to this one. -/
def SwitchesTo (v : Bool) (a : Activity) : Prop := a = .task (.message (.setTextMode v))

/-- Threads that have ended here have ended there in the same way. -/
def EndsAlike (here : List (Comp Unit)) (there : List (Prog Unit)) : Prop :=
  here.length = there.length ∧ ∀ (i : Nat) (r : Except PyErr Unit), here[i]? = some (Comp.done r) → there[i]? = some (Prog.done r)

/-- What the threads ended with. -/
def resultsWith (threads : List (Comp Unit)) : List (Option (Except PyErr Unit)) :=
  threads.map fun p => match p with
    | .done r => some r
    | _ => none

end Gsm.Spec
