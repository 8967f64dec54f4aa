import Verif.Spec.ModemLog
import Verif.Spec.Threads
import Verif.Model.ThreadCalls
import Verif.Model.Waiting
/-! # Specification: the memory in which a thread reads and deletes -/
namespace Gsm.Spec

/-- The last lines of a log, each with the lines before it. -/
def newest : Nat → List PyStr → List (PyStr × List PyStr)
  | n + 1, c :: log => (c, log) :: newest n log
  | _, _ => []

/-- The lines of one thread, each with the lines of all threads before it. -/
def linesWithPast (env : Env) (i : Nat) : List Nat → List (Prog Unit) × St → List (PyStr × List PyStr)
  | [], _ => []
  | j :: is, (threads, s) =>
    match threads[j]? with
    | none => linesWithPast env i is (threads, s)
    | some p =>
      (if j = i then newest ((p.step env s).2.log.length - s.log.length) (p.step env s).2.log else []) ++
        linesWithPast env i is (threads.set j (p.step env s).1, (p.step env s).2)

/-- The method says in which memory its messages are. -/
def NamesMemory (m : PyStr) : Method → Prop
  | .read _ mem | .delete _ mem | .deleteMultiple _ mem | .list _ mem _ => mem = some m
  | .received line => ∃ idx, StoredAt py!"+CMTI:" line m idx
  | .statusReport line => ∃ idx, StoredAt py!"+CDSI:" line m idx
  | .send .. | .setTextMode _ | .ask _ => False

/-- The thread is about messages in the memory `m` only. -/
def OneMemoryTask (m : PyStr) : Task → Prop
  | .message x => OneMemory m x
  | .notify lines => ∀ line ∈ lines, ∀ mem idx, StoredAt py!"+CMTI:" line mem idx ∨ StoredAt py!"+CDSI:" line mem idx → mem = m
  | _ => True

/-- The thread is no call of a method for messages that leaves the memory open. -/
def NamesMemoryTask (m : PyStr) : Task → Prop
  | .message x => NamesMemory m x
  | _ => True

/-- The same for threads that wait. -/
def OneMemoryJob (m : PyStr) : Job → Prop
  | .task x => OneMemoryTask m x
  | _ => True

/-- The same for threads that wait. The text of a message is not looked at. -/
def NamesMemoryJob (m : PyStr) : Job → Prop
  | .task x => NamesMemoryTask m x
  | .sendWait .. => False
  | _ => True

/-- The memory was the last that the modem was told to use, and it has agreed. -/
def MemoryInUse (env : Env) (m : PyStr) (log : List PyStr) : Prop := LastAccepted env.reply SelectsMemory log (memoryCmd m)

end Gsm.Spec
