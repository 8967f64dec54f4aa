import Verif.Model.Waiting
import Verif.Model.Serial
/-! # The whole library: the threads, the modem object and the serial line

`SerialComms` (`Verif.Model.Serial`) below the threads that run methods of the modem object (`Verif.Model.Waiting`).
A thread that writes a command takes the lock of `SerialComms.write` (serial_comms.py:121), and has the answer only when
the reader has read it, or when the time is over; meanwhile the other threads go on, until they write a command
themselves. Each batch of lines that is not part of an answer starts a thread (modem.py:847-857).

Simplifications: those of the two models; in particular, a command whose answer is not awaited is written in one step. -/
namespace Gsm

/-- `expectedResponseTermSeq`: `sendSms` waits for a prompt when it has announced a message, modem.py:643, 648. -/
def promptOf (text : PyStr) : Option PyStr :=
  if text.take 8 = py!"AT+CMGS=" ∧ text.getLast? = some 13 then some py!"> " else none

/-- What `SerialComms.write` came to, for the method that called it. -/
def Outcome.reply : Outcome → Reply
  | .returned ls => .lines ls
  | .timeout d => .timeout d

/-- A thread inside `SerialComms.write`. -/
structure InWrite where
  thread : Nat
  /-- Observation: the commands written when it began, its own included. -/
  log : List PyStr

structure Stack where
  threads : List (Proc Value)
  shared : Shared
  comms : Comms := {}
  inWrite : Option InWrite := none

inductive StackEvent
  | arrives (c : Nat) (more : Bool)          -- a character arrives; more are waiting or not
  | breaks                                   -- `serial.read` raises SerialException
  | late                                     -- the time for the answer is over
  | thread (i : Nat)                         -- the thread goes on, if it can
  deriving DecidableEq, Repr

namespace Stack

/-- Something happens to the reader; each new batch of notifications starts a thread. -/
def reader [PyUnicode] (x : Stack) (e : SEvent) : Stack :=
  { x with
    comms := sstep x.comms e
    threads := x.threads ++ ((sstep x.comms e).notified.drop x.comms.notified.length).map fun batch => (Job.task (.notify batch)).proc }

/-- The wait is over, one way or the other: the thread goes on with what `SerialComms.write` came to. -/
def answered (x : Stack) (e : SEvent) : Stack :=
  match x.inWrite with
  | none => x
  | some y =>
    match x.threads[y.thread]?, (sstep x.comms e).outcomes.drop x.comms.outcomes.length with
    | some (.io _ k), o :: _ => { x with comms := sstep x.comms e, threads := x.threads.set y.thread (k o.reply), inWrite := none }
    | _, _ => x

/-- A thread begins to write a command, unless another one is writing. -/
def begin (x : Stack) (i : Nat) (t : PyStr) : Stack :=
  match x.inWrite with
  | none => { x with comms := sstep x.comms (.start (promptOf t)), shared := x.shared.written t, inWrite := some ⟨i, t :: x.shared.st.log⟩ }
  | some y => if y.thread = i then x.answered .finish else x

def happens [PyUnicode] (lim : Limits) (x : Stack) : StackEvent → Stack
  | .arrives c more => x.reader (.rx c more)
  | .breaks => x.reader .fail
  | .late => x.answered .expire
  | .thread i =>
    match x.threads[i]? with
    | some (.io t _) => x.begin i t
    | some (.act f k) => { x with threads := x.threads.set i (k lim x.shared), shared := f lim x.shared }
    | _ => x

def runs [PyUnicode] (lim : Limits) (hs : List StackEvent) (x : Stack) : Stack := hs.foldl (happens lim) x

end Stack

/-- The jobs, each in a thread of its own, after `connect`. -/
def Stack.start [PyUnicode] (jobs : List Job) (w : Shared) : Stack := { threads := jobs.map Job.proc, shared := w }

end Gsm
