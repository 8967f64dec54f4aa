import Verif.Spec.Clock
import Verif.Model.ThreadConnect
import Verif.Model.Waiting
/-! # Specification: what threads do together -/
namespace Gsm.Spec

/-- The schedule never forgets the `i`-th thread. -/
def Fair (schedule : Nat → Nat) (i : Nat) : Prop := ∀ n, ∃ m, n ≤ m ∧ schedule m = i

/-- The first `n` steps of a schedule without end. -/
def firstSteps (schedule : Nat → Nat) (n : Nat) : List Nat := (List.range n).map schedule

/-- How many commands a thread needs at most, when none is repeated. -/
def activityCommands (lines : Nat) : Activity → Nat
  | .task t => taskCommands lines t
  | .connect _ => mostToConnect

def jobCommands (lines : Nat) : Job → Nat
  | .task t => taskCommands lines t
  | .ussd _ => 1
  | .dial _ _ _ => 1
  | .sendWait _ text _ => mostToSend text

/-- The activities that delete one by one what they have listed. -/
def activityDeletes : Activity → Bool
  | .task t => deletesListed t
  | .connect _ => false

def jobDeletes : Job → Bool
  | .task t => deletesListed t
  | _ => false

/-- How often a task may call back: once for what it was told, or for what it did to a call; whoever watches a call tells that it is answered, and that it has ended. -/
def taskCallbacks : Task → Nat
  | .message (.received _) => 1
  | .message (.statusReport _) => 1
  | .notify _ => 1
  | .poll _ p => if p.expectedState = 2 then 1 else 2
  | .answer _ => 1
  | .hangup _ => 1
  | _ => 0

/-- How many objects for calls a task may create. -/
def taskCalls : Task → Nat
  | .notify _ => 1
  | .dial _ _ => 1
  | _ => 0

/-- How many objects for sent messages a task may create. -/
def taskSent : Task → Nat
  | .message (.send _ _ _) => 1
  | _ => 0

def activityCallbacks : Activity → Nat
  | .task t => taskCallbacks t
  | .connect _ => 0

def activityCalls : Activity → Nat
  | .task t => taskCalls t
  | .connect _ => 0

def activitySent : Activity → Nat
  | .task t => taskSent t
  | .connect _ => 0

def jobCallbacks : Job → Nat
  | .task t => taskCallbacks t
  | _ => 0

def jobCalls : Job → Nat
  | .task t => taskCalls t
  | .dial _ _ _ => 1
  | _ => 0

def jobSent : Job → Nat
  | .task t => taskSent t
  | .sendWait _ _ _ => 1
  | _ => 0

end Gsm.Spec
