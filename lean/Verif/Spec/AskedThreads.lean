import Verif.Spec.Asked
import Verif.Model.Waiting
/-! # Specification: which lines threads may send -/
namespace Gsm.Spec

/-- What a method may send. -/
def methodMay : Method → List Purpose
  | .read .. => [.memory, .fetch]
  | .delete .. | .deleteMultiple .. => [.memory, .erase]
  | .list _ _ delete => if delete then [.memory, .list, .erase] else [.memory, .list]
  | .received _ | .statusReport _ => [.memory, .fetch, .erase]
  | .send .. => [.post, .body]
  | .setTextMode _ => [.mode]
  | .ask _ => []

/-- What a task may send. -/
def taskMay : Task → List Purpose
  | .message m => methodMay m
  | .notify _ => [.ringType, .memory, .fetch, .erase]
  | .poll .. => [.ask]
  | .dial .. => [.dial]
  | .answer _ => [.answer]
  | .hangup _ => [.hangUp]
  | .dtmf .. => [.tones]

/-- What a thread may send. -/
def jobMay : Job → List Purpose
  | .task t => taskMay t
  | .ussd _ => [.ussd]
  | .dial .. => [.dial]
  | .sendWait .. => [.post, .body]

/-- A line that the thread may send: one of its kinds, or the command that the program wrote itself. -/
def JobLine (j : Job) (c : PyStr) : Prop := (∃ k ∈ jobMay j, k.Of c) ∨ ∃ command, j = .task (.message (.ask command)) ∧ c = command ++ [13]

end Gsm.Spec
