import Verif.Model.ThreadCalls
import Verif.Spec.Threads
import Verif.Spec.Calls
import Verif.Spec.Progress
/-! # Specification: calls in several threads -/
namespace Gsm.Spec
open List M

/-- Some rounds of polling. -/
def pollRounds : Nat → Poller → M Unit
  | 0, _ => pure ()
  | n + 1, p => do
    let p ← pollRound p
    if p.done then pure () else pollRounds n p

/-- The task, run without other threads. -/
def taskAlone [PyUnicode] : Task → M Unit
  | .message m => alone m
  | .notify lines => handleNotification lines
  | .poll n p => pollRounds n p
  | .dial n cb => do
    writeAtd n
    discard (registerNext { incoming := false, id := 0, type := some 0, number := some n, callback := cb })
  | .answer i => answer i
  | .hangup i => hangup i
  | .dtmf i t => sendDtmfTone i t

/-- The tasks one after the other. -/
def tasksSerially [PyUnicode] (env : Env) : List Task → St → List (Except PyErr Unit) × St
  | [], s => ([], s)
  | x :: xs, s => ((taskAlone x env s).1 :: (tasksSerially env xs (taskAlone x env s).2).1, (tasksSerially env xs (taskAlone x env s).2).2)

/-- Ids are not repeated in the table, and every entry leads to a call with this id. -/
def TableKeyed (s : St) : Prop :=
  (s.activeCalls.map (·.1)).Nodup ∧ ∀ k i, (k, i) ∈ s.activeCalls → ∃ c, s.calls[i]? = some c ∧ c.id = k

/-- The same call, later: it does not become active again and does not ring again. -/
structure SameCall (c c' : CallObj) : Prop where
  incoming : c'.incoming = c.incoming
  id : c'.id = c.id
  type : c'.type = c.type
  number : c'.number = c.number
  ton : c'.ton = c.ton
  callback : c'.callback = c.callback
  active : c'.active = true → c.active = true
  ringing : c'.ringing = true → c.ringing = true

/-- What can become of the calls. -/
structure CallsGrow (a b : St) : Prop where
  grows : Grows a b
  updates : b.callStatusUpdates = a.callStatusUpdates
  clip : b.callingLineIdentification = a.callingLineIdentification
  table : TableKeyed a → TableKeyed b
  calls : ∀ (i : Nat) (c : CallObj), a.calls[i]? = some c → ∃ c', b.calls[i]? = some c' ∧ SameCall c c'
  /-- a call that was removed from the table does not come back -/
  removed : ∀ i, i < a.calls.length → ¬ InTable a i → ¬ InTable b i

/-- A call of the table is over. -/
def Stale (s : St) (k : Int) (i : Nat) : Prop := (k, i) ∈ s.activeCalls ∧ ∃ c, s.calls[i]? = some c ∧ c.active = false

/-- No call of `a` is over in `b`, and the new calls are active. -/
structure CallsStay (a b : St) : Prop where
  grow : CallsGrow a b
  active : ∀ (i : Nat) (c : CallObj), a.calls[i]? = some c → c.active = true → ∃ c', b.calls[i]? = some c' ∧ c'.active = true
  ids : ∀ k ∈ a.activeCalls.map (·.1), k ∈ b.activeCalls.map (·.1)
  stale : ∀ k i, Stale b k i → Stale a k i

/-- The call is over: it is not active, does not ring and is not in the table. -/
def Over (s : St) (i : Nat) : Prop := (∃ c, s.calls[i]? = some c ∧ c.active = false ∧ (c.incoming = true → c.ringing = false)) ∧ ¬ InTable s i

/-- The task does not end calls. -/
def EndsNoCalls : Task → Prop
  | .hangup _ | .poll .. => False
  | .notify lines => ∀ l ∈ lines, ∀ t g, recognise (callTable t) l ≠ some (.call .ended g) ∧ recognise (callTable t) l ≠ some (.call .rejected g)
  | .message _ | .dial .. | .answer _ | .dtmf .. => True

/-- The task does not put calls into the table. -/
def StartsNoCalls : Task → Prop
  | .dial .. => False
  | .notify lines => ∀ l ∈ lines, ¬ py!"RING" <:+: l
  | .message _ | .poll .. | .answer _ | .hangup _ | .dtmf .. => True

end Gsm.Spec
