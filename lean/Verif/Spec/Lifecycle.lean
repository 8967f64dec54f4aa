import Verif.Model.Lifecycle
import Verif.Spec.Serial
/-! # Specification: connections of `SerialComms`, one after the other -/
namespace Gsm.Spec

/-- The read thread may still read. -/
def Active (r : Reader) : Prop := r.phase = .top ∨ r.phase = .reading

/-- `connect` is called only when no read thread is active: at the beginning, after `close`, or after a fatal error. -/
def Orderly : List LEvent → Life → Prop
  | [], _ => True
  | e :: es, x => (∀ works, e = .connect works → ∀ r ∈ x.readers, ¬ Active r) ∧ Orderly es (lstep x e)

/-- `write` is called only when the port is open. -/
def WritesWork : List LEvent → Life → Prop
  | [], _ => True
  | e :: es, x => (∀ p, e = .write p → x.app = .idle → x.isOpen = true) ∧ WritesWork es (lstep x e)

/-- What the read thread `i` reads in a step. -/
def readIn (i : Nat) (e : LEvent) (x : Life) : PyStr :=
  match e with
  | .got j c _ => if j = i ∧ x.readers[j]?.map (·.phase) = some .reading ∧ x.isOpen = true then [c] else []
  | _ => []

/-- The characters that the read thread `i` reads. -/
def readBy (i : Nat) : List LEvent → Life → PyStr
  | [], _ => []
  | e :: es, x => readIn i e x ++ readBy i es (lstep x e)

/-- `close` does not happen. -/
def NeverClosed (es : List LEvent) : Prop := ∀ e ∈ es, e ≠ .close ∧ ∀ i, e ≠ .closeWithin i

end Gsm.Spec
