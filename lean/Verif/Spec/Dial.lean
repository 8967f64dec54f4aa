import Verif.Spec.Progress
import Verif.Spec.Polling
import Verif.Spec.Notify
/-! # Specification: dialling -/
namespace Gsm.Spec

/-- The command is written; unless the modem answers only later, the answer is awaited. -/
def Dialled (reply : List PyStr → Reply) (wait : Bool) (number : PyStr) (old log : List PyStr) (ok : Bool) : Prop :=
  if wait then Transmission reply [py!"ATD" ++ number ++ py!";\r"] old log ok
  else log = (py!"ATD" ++ number ++ py!";\r") :: old ∧ ok = true

/-- The event, after which the state is `s'`, tells of a new call with this id and type: by the first line
that announces anything, or by a polling thread that sees the call for the first time. -/
inductive TellsCall (env : Env) (s s' : St) : Event → Nat → Nat → Prop
  | line {pre line post a b} : (∀ l ∈ pre, ∀ d, ¬ Announces (callTable s.callStatusUpdates) l d) →
      Says s.callStatusUpdates line (.started a b) → TellsCall env s s' (.notify (pre ++ line :: post)) a b
  | poll {k p id stat mode} : s.pollers[k]? = some p → s.alive = true → p.done = false → 0 < p.timeLeft → p.expectedState = 0 →
      Queried env.reply s.log s'.log (.call id 0 stat mode) → (stat = 2 ∨ stat = 3) → TellsCall env s s' (.poll k) id mode

/-- Waiting for the first event that tells of a call; the last argument is what it tells, or `none` if the
time is over before. -/
inductive AwaitsCall (env : Env) : St → List Event → St → Option (Nat × Nat) → Prop
  | over {s} : AwaitsCall env s [] s none
  | told {s e es a b} : TellsCall env s (e.run env s).2 e a b → AwaitsCall env s (e :: es) (e.run env s).2 (some (a, b))
  | other {s e es s' r} : (∀ a b, ¬ TellsCall env s (e.run env s).2 e a b) → AwaitsCall env (e.run env s).2 es s' r → AwaitsCall env s (e :: es) s' r

/-- The thread that polls the status, where the modem does not report it. -/
def withPoller (s : St) (timeout : Nat) : St :=
  if s.mustPollCallStatus then
    { s with pollers := s.pollers ++ [{ expectedState := 0, callId := none, timeLeft := if timeout = 0 then 2 * 999999 else timeout, done := false }] }
  else s

/-- The call is added to the objects and to the table, where it replaces another with the same id. -/
def addCall (s : St) (c : CallObj) : St :=
  { s with calls := s.calls ++ [c], activeCalls := dictSet s.activeCalls c.id s.calls.length }

/-- The new call. -/
def newCall (number : PyStr) (cb : Bool) (id type : Int) : CallObj :=
  { incoming := false, id := id, type := some type, number := some number, ton := none, answered := false, active := true, ringing := false, ringCount := 0, callback := cb }

/-- The end of a wait: the call, or a time-out. -/
def dialEnd (number : PyStr) (cb : Bool) (s : St) : Option (Nat × Nat) → Except PyErr Nat × St
  | none => (.error (.timeout none), { s with dialEvent := none })
  | some (id, type) => (.ok s.calls.length, addCall { s with dialEvent := none } (newCall number cb id type))

end Gsm.Spec
