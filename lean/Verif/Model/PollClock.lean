import Verif.Model.Clock
import Verif.Model.ModemCalls
/-! # When the status of a call is asked for: gsmmodem/modem.py:1158-1205

The loop of `_pollCallStatus` with its pauses of half a second; times are in milliseconds.

Simplification: the thread is alone; other threads that write at the same time make it wait for the lock. -/
namespace Gsm

/-- The condition of the loop. -/
def polling (k : Nat) (s : St) : Bool :=
  match s.pollers[k]? with
  | none => false
  | some p => s.alive ∧ ¬ p.done ∧ 0 < p.timeLeft

/-- The time that one round takes after the pause. -/
def roundTime (env : Env) (wait : List PyStr → Nat) (k : Nat) (s : St) : Nat :=
  match s.pollers[k]? with
  | none => 0
  | some p => (Prog.pollRound p).elapsed env wait s

/-- The moments at which the queries of the next `n` rounds are written, from the time `t` on. -/
def pollTimes (env : Env) (wait : List PyStr → Nat) (k : Nat) : Nat → Nat → St → List Nat
  | 0, _, _ => []
  | n + 1, t, s =>
    if polling k s then (t + 500) :: pollTimes env wait k n (t + 500 + roundTime env wait k s) ((Event.poll k).run env s).2
    else []

/-- The state after `n` rounds. -/
def afterPolls (env : Env) (k : Nat) : Nat → St → St
  | 0, s => s
  | n + 1, s => afterPolls env k n ((Event.poll k).run env s).2

end Gsm
