import Verif.Spec.ThreadCalls
import Verif.Spec.Calls
import Verif.Model.DialExamples
/-! # Specification: what a thread writes, and what the examples that make calls should do -/
namespace Gsm.Spec
open List

/-- What a program writes in its next step, with the answer it gets. -/
def says (env : Env) (s : St) : Prog Unit → List (PyStr × Reply)
  | .io t _ => [(t, env.reply (t :: s.log))]
  | _ => []

/-- The commands that thread `i` writes during the schedule, with the answers it gets. -/
def said (env : Env) (i : Nat) : List Nat → List (Prog Unit) × St → List (PyStr × Reply)
  | [], _ => []
  | j :: js, (threads, s) =>
    match threads[j]? with
    | none => said env i js (threads, s)
    | some p => (if j = i then says env s p else []) ++ said env i js (threads.set j (p.step env s).1, (p.step env s).2)

/-- The answer is that the modem is busy; that the command was taken. -/
def SaysBusy (r : Reply) : Prop := ∃ n ls line, r = .lines ls ∧ ls.getLast? = some line ∧ Busy n line
def SaysYes (r : Reply) : Prop := ∃ ls line, r = .lines ls ∧ ls.getLast? = some line ∧ ¬ py!"ERROR" <:+: line ∧ line ≠ py!"COMMAND NOT SUPPORT"

/-- The command is written, and again only when the modem was busy; perhaps not at all. -/
def Attempts (text : PyStr) (l : List (PyStr × Reply)) : Prop := (∀ x ∈ l, x.1 = text) ∧ ∀ x ∈ l.dropLast, SaysBusy x.2

/-- Each tone is played with a command of its own, in one line. -/
def tonesText (base : PyStr) : PyStr := dtmfText base py!"9515999955951" ++ [13]
def TonesText (id : Int) (t : PyStr) : Prop := ∃ huawei, t = tonesText (dtmfPart huawei id)

/-- First the tones are played, then the call is ended. -/
def TonesThenHangup (id : Int) (l : List (PyStr × Reply)) : Prop := ∃ t l1 l2, l = l1 ++ l2 ∧ TonesText id t ∧ Attempts t l1 ∧ Attempts py!"ATH\r" l2

def Inactive (s : St) (i : Nat) : Prop := ∃ c, s.calls[i]? = some c ∧ c.active = false

/-- The threads: dial_polling_demo.py with call `i` and a bound on the rounds of its loop, and others. -/
def pollingDemo [PyUnicode] (env : Env) (schedule : List Nat) (i rounds : Nat) (others : List Task) (s : St) : List (Prog Unit) × St :=
  runThreads env schedule (Prog.dialLoop i rounds :: others.map Task.prog, s)
def pollingSaid [PyUnicode] (env : Env) (schedule : List Nat) (i rounds : Nat) (others : List Task) (s : St) : List (PyStr × Reply) :=
  said env 0 schedule (Prog.dialLoop i rounds :: others.map Task.prog, s)

end Gsm.Spec
