import Verif.Model.Py
/-! # gsmmodem/compat.py, and `threading.Event.wait`

The flag of an event and one thread that waits for it, step by step; between the steps other threads may set or clear the flag. Python 2.6 and 2.7
(Lib/threading.py): with the lock of the condition, if the flag is not set, wait for the condition, which gives the lock back meanwhile; 2.7 then returns the flag
while it still has the lock, 2.6 returns `None`; Python 3 returns what the wait for the condition has returned. -/
namespace Gsm

inductive PyVersion
  | py26
  | py27
  | py3
  deriving DecidableEq, Repr

/-- Where the waiting thread is. -/
inductive WaitStage
  /-- before it looks at the flag -/
  | entry
  /-- waiting for the condition; whether it was notified -/
  | waiting (notified : Bool)
  /-- about to get the lock again, because of a notification or because the time is over -/
  | relock (signaled : Bool)
  /-- `func` of `newWait` has returned; so many calls of `is_set()` to go -/
  | check (n : Nat)
  | returned (r : Option Bool)
  deriving DecidableEq, Repr

structure EventState where
  flag : Bool
  stage : WaitStage
  deriving DecidableEq, Repr

/-- What happens next. -/
inductive WaitMove
  /-- another thread calls `set()` (which notifies) -/
  | set
  /-- another thread calls `clear()` -/
  | clear
  /-- the waiting thread goes on -/
  | step
  /-- its time is over -/
  | timeUp
  deriving DecidableEq, Repr

/-- What `wait` of this version returns. -/
def rawResult (v : PyVersion) (flag signaled : Bool) : Option Bool :=
  match v with
  | .py26 => none
  | .py27 => some flag
  | .py3 => some signaled

/-- The end of `func`; `wraps` counts the layers of `newWait` (compat.py:12-14) around it. -/
def leaveRaw (wraps : Nat) (r : Option Bool) : WaitStage := if wraps = 0 then .returned r else .check wraps

def waitMove (v : PyVersion) (wraps : Nat) (s : EventState) : WaitMove → EventState
  | .set => ⟨true, match s.stage with
    | .waiting _ => .waiting true
    | g => g⟩
  | .clear => { s with flag := false }
  | .timeUp => match s.stage with
    | .waiting false => { s with stage := .relock false }
    | _ => s
  | .step => match s.stage with
    | .entry => if s.flag then { s with stage := leaveRaw wraps (rawResult v s.flag true) } else { s with stage := .waiting false }
    | .waiting true => { s with stage := .relock true }
    | .waiting false => s
    | .relock signaled => { s with stage := leaveRaw wraps (rawResult v s.flag signaled) }
    | .check n => if n ≤ 1 then { s with stage := .returned (some s.flag) } else { s with stage := .check (n - 1) }
    | .returned _ => s

/-- A thread that waits for a new event. -/
def waitRun (v : PyVersion) (wraps : Nat) (ms : List WaitMove) : EventState := ms.foldl (waitMove v wraps) ⟨false, .entry⟩

/-- compat.py:5-18: how often importing the module has wrapped `wait` (each import of it under another name, or `reload`, once more), or `ImportError`. -/
def compatWraps (major minor : Nat) (has_Event : Bool) (imports : Nat) : Option Nat :=
  if major = 2 ∧ minor < 7 then
    if has_Event then some imports else none
  else some 0

/-- The `threading` module of this version of Python. -/
def versionOf (major minor : Nat) : PyVersion :=
  if major = 2 then if minor < 7 then .py26 else .py27 else .py3

/-- The end of `SerialComms.write`, serial_comms.py:128-139: the response, or the `TimeoutException` with what has come. -/
def endOfWrite (r : Option Bool) (response : List PyStr) : Except (Option (List PyStr)) (List PyStr) :=
  if r = some true then .ok response
  else if response.length > 0 then .error (some response) else .error none

end Gsm
