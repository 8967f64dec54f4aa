import Verif.Model.Waiting
import Verif.Model.Serial
import Verif.Model.Stack
import Verif.Spec.Serial
/-! # Specification: what can be heard on the serial line -/
namespace Gsm.Spec
open List

/-- A line that can be read. -/
def LineText (l : PyStr) : Prop := l ≠ [] ∧ NoEol l

/-- The prompt is not seen in the lines after the first. (Part of the first may have come before the command.) -/
def Unprompted (prompt : Option PyStr) (ls : List PyStr) : Prop := ∀ q, prompt = some q → ∀ l ∈ ls.tail, ¬ q <:+: l

/-- These lines can have been read as an answer that is not over. -/
structure Begun (prompt : Option PyStr) (ls : List PyStr) : Prop where
  readable : ∀ l ∈ ls, LineText l
  unprompted : Unprompted prompt ls
  notFinal : ∀ l ∈ ls, ¬ IsFinal l

/-- These lines can have been read as an answer. -/
inductive Heard (prompt : Option PyStr) : List PyStr → Prop
  | code {pre l} : Begun prompt pre → LineText l → IsFinal l → Unprompted prompt (pre ++ [l]) → Heard prompt (pre ++ [l])
  /-- the answer ends with the prompt, as soon as it is seen -/
  | prompt {pre l q} : Begun prompt pre → prompt = some q → q <:+ l → NoEol l → (pre ≠ [] → ∀ l', l' <+: l → q <:+ l' → l' = l) → Heard prompt (pre ++ [l])

/-- `SerialComms.write` can come to this. -/
inductive Comes (prompt : Option PyStr) : Reply → Prop
  | answer {ls} : Heard prompt ls → Comes prompt (.lines ls)
  | silence : Comes prompt (.timeout none)
  | begun {ls} : ls ≠ [] → Begun prompt ls → Comes prompt (.timeout (some ls))
  /-- the answer was over at the last moment -/
  | late {ls} : Heard prompt ls → Comes prompt (.timeout (some ls))

/-- A text is expected when a message was announced. -/
def Announced (text : PyStr) : Prop := py!"AT+CMGS=" <+: text ∧ [13] <:+ text

/-- The modem answers as can be heard on a serial line; a prompt is waited for when a message was announced. -/
def Audible (env : Env) : Prop := ∀ t log, (Announced t → Comes (some py!"> ") (env.reply (t :: log))) ∧ (¬ Announced t → Comes none (env.reply (t :: log)))

/-- A batch of notifications that can be heard. -/
def Batch (batch : List PyStr) : Prop := batch ≠ [] ∧ ∀ l ∈ batch, LineText l

/-- The outcomes of the commands (the last first), written with others whose answers were not awaited. -/
inductive Exchanged (env : Env) : List PyStr → List Outcome → Prop
  | nil (log : List PyStr) : Exchanged env log []
  | unheard {log os} (t : PyStr) : Exchanged env log os → Exchanged env (t :: log) os
  | returned {log os t ls} : Exchanged env log os → env.reply (t :: log) = .lines ls → Exchanged env (t :: log) (.returned ls :: os)
  | timeout {log os t d} : Exchanged env log os → env.reply (t :: log) = .timeout d → Exchanged env (t :: log) (.timeout d :: os)

/-- The characters that came before the connection broke. -/
def arrived : List StackEvent → PyStr
  | [] => []
  | .arrives c _ :: hs => c :: arrived hs
  | .breaks :: _ => []
  | _ :: hs => arrived hs

/-- The jobs of the program, and a job for each batch of notifications that was read. -/
def withBatches (jobs : List Job) (batches : List (List PyStr)) : List Job := jobs ++ batches.map fun b => .task (.notify b)

/-- The lines of an outcome. -/
def Outcome.linesOf : Outcome → List PyStr
  | .returned ls => ls
  | .timeout d => d.getD []

end Gsm.Spec
