import Verif.Model.ThreadCalls
/-! # The time that methods take: gsmmodem/modem.py:387-446

Time passes in two places only: while the modem is waited for, and in `time.sleep`. How long the modem lets wait
for its answer to a command is given by a function of all the commands so far, in milliseconds. `_writeWait` is
counted in tenths of a second, as in `Verif.Model.Modem`.

Simplifications: computing takes no time, nor does waiting for the lock of `SerialComms.write`; `connect`, and
methods that wait for an event, are left out; the pauses of half a second of `_pollCallStatus` (modem.py:1171) are not counted. -/
namespace Gsm

/-- `time.sleep(self._writeWait)`, modem.py:414-415, 430, in milliseconds. -/
def nap (writeWait : Nat) : Nat := if writeWait > 0 then 100 * writeWait else 0

/-- `GsmModem.write`, modem.py:387-446, with the time it takes. -/
def timedWriteN (env : Env) (wait : List PyStr → Nat) : Nat → PyStr → Bool → PyStr → St → (Except PyErr (List PyStr) × St) × Nat
  | 0, _, _, _, s => ((.error .recursionError, s), 0)
  | depth + 1, data, parseError, writeTerm, s =>
    let s := { s with log := (data ++ writeTerm) :: s.log }
    let waited := wait s.log
    match env.reply s.log with
    | .timeout d => ((.error (.timeout d), s), waited)
    | .lines ls =>
      let t := waited + nap s.writeWait
      match ls.getLast? with
      | none => ((.error .indexError, s), t)
      | some cmdStatusLine =>
        if parseError then
          match classify cmdStatusLine with
          | .fine => ((.ok ls, s), t)
          | .failed e => ((.error e, s), t)
          | .busy code =>
            let s := { s with writeWait := s.writeWait + 2 }
            let t := t + nap s.writeWait
            match timedWriteN env wait depth data parseError writeTerm s with
            | ((.ok r, s), t') => ((.ok r, { s with writeWait := if code = 515 then 1 else 0 }), t + t')
            | ((.error e, s), t') => ((.error e, s), t + t')
        else ((.ok ls, s), t)

/-- `GsmModem.write`, with the time it takes. -/
def timedWrite (env : Env) (wait : List PyStr → Nat) (data : PyStr) (parseError : Bool) (writeTerm : PyStr) (s : St) :
    (Except PyErr (List PyStr) × St) × Nat := timedWriteN env wait env.depth data parseError writeTerm s

namespace Prog

/-- The pause after the answer to a command, modem.py:413-415; there is none when the modem has not answered in time. -/
def pauseAfter (r : Reply) (writeWait : Nat) : Nat :=
  match r with
  | .lines _ => nap writeWait
  | .timeout _ => 0

/-- The time that a step takes which changes attributes from `a` to `b`: a command without waiting for its answer is followed
by a pause, and so is the one statement that raises `_writeWait` by 0.2 (modem.py:427-430). -/
def actTime (a b : St) : Nat :=
  (if a.log.length < b.log.length then nap a.writeWait else 0) + (if a.writeWait + 2 ≤ b.writeWait then nap b.writeWait else 0)

/-- The time that a method takes, without other threads. -/
def elapsed {α : Type} (env : Env) (wait : List PyStr → Nat) : Prog α → St → Nat
  | done _, _ => 0
  | io t k, s =>
    wait (t :: s.log) + pauseAfter (env.reply (t :: s.log)) s.writeWait +
      elapsed env wait (k (env.reply (t :: s.log))) { s with log := t :: s.log }
  | act f k, s => actTime s (f env s) + elapsed env wait (k env s) (f env s)

end Prog

/-- The time that tasks take one after the other. -/
def elapsedAll [PyUnicode] (env : Env) (wait : List PyStr → Nat) : List Task → St → Nat
  | [], _ => 0
  | t :: ts, s => t.prog.elapsed env wait s + elapsedAll env wait ts (t.prog.run env s).2

/-- The state after tasks one after the other. -/
def afterAll [PyUnicode] (env : Env) : List Task → St → St
  | [], s => s
  | t :: ts, s => afterAll env ts (t.prog.run env s).2

end Gsm
