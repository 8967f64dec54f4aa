import Verif.Spec.CallLine
import Verif.Spec.Dial
import Verif.Model.PollClock
/-! # Specification: a call whose status is polled

On a modem that does not report what becomes of a call, the program asks for the list of calls twice a
second. The call goes through its stages on the line; what the program knows of it is what the last query
showed. -/
namespace Gsm.Spec

/-- What a call made by the program goes through. -/
inductive Stage
  | begun       -- it rings at the other end
  | answered
  | over
  deriving DecidableEq

/-- Stages come in this order. -/
def Stage.rank : Stage → Nat
  | .begun => 0
  | .answered => 1
  | .over => 2

/-- The list of calls at this stage of the call with the number `id`, there being no other: it is dialling
(2) or alerting (3), or active (0), or not in the list. -/
def Stage.Listed (id : Nat) : Stage → Seen → Prop
  | .begun, .call n dir stat _ => n = id ∧ dir = 0 ∧ (stat = 2 ∨ stat = 3)
  | .answered, .call n dir stat _ => n = id ∧ dir = 0 ∧ stat = 0
  | .over, .nothing => True
  | _, _ => False

/-- What happens, and to which stage the call comes, as far as the program has looked or acted. The thread
that polls is the thread `k`, and the call is the object `i`. -/
inductive PolledStep [PyUnicode] (env : Env) (k i id : Nat) (st : Stage) (s : St) : Stage → St → Prop
  /-- the thread looks, and the call may have come to a later stage -/
  | looks {st' o} : st.rank ≤ st'.rank → st'.Listed id o → Queried env.reply s.log (clccQuery env s).2.log o →
      PolledStep env k i id st s st' ((Event.poll k).run env s).2
  /-- a thread that is over wakes up no more -/
  | idle {j} : (∀ p, s.pollers[j]? = some p → p.done = true) → PolledStep env k i id st s st ((Event.poll j).run env s).2
  /-- the program hangs up -/
  | hungUp : (hangup i env s).1 = .ok () → PolledStep env k i id st s .over (hangup i env s).2
  | hangupFails {e} : (hangup i env s).1 = .error e → PolledStep env k i id st s st (hangup i env s).2
  | otherNews {pre line post d} : (∀ l ∈ pre, ∀ d, ¬ Announces (callTable s.callStatusUpdates) l d) → Announces (callTable s.callStatusUpdates) line d →
      (d = .cmti ∨ d = .cdsi ∨ d = .cusd) → PolledStep env k i id st s st (handleNotification (pre ++ line :: post) env s).2
  | noNews {lines} : (∀ l ∈ lines, ∀ d, ¬ Announces (callTable s.callStatusUpdates) l d) → PolledStep env k i id st s st (handleNotification lines env s).2
  | other {op} : OtherWork op → PolledStep env k i id st s st (op.run env s).2

/-- A history; the list has the stages after each step. -/
inductive PolledLife [PyUnicode] (env : Env) (k i id : Nat) : Stage → St → List Stage → Stage → St → Prop
  | start {st s} : PolledLife env k i id st s [] st s
  | next {st s st1 s1 sts st2 s2} : PolledStep env k i id st s st1 s1 → PolledLife env k i id st1 s1 sts st2 s2 → PolledLife env k i id st s (st1 :: sts) st2 s2

/-- How often the stage changes. -/
def stageChanges : Stage → List Stage → Nat
  | _, [] => 0
  | st, st' :: sts => (if st = st' then 0 else 1) + stageChanges st' sts

/-- The object of a call at a stage. -/
def atStage (c : CallObj) (st : Stage) : CallObj := { c with answered := st = .answered, active := st ≠ .over }

/-- The table, if it was `d` when the call began. -/
def tableAt (d : List (Int × Nat)) (id : Nat) : Stage → List (Int × Nat)
  | .over => dictDel d (id : Int)
  | _ => d

/-- The calls whose status callback was called, the last first. -/
def toldBack (l : List Callback) : List Nat := l.filterMap fun c => match c with | .callStatus i => some i | _ => none

/-- The call has begun: the object `c` is the one with the number `i` and active, it is in the table under its
id, and the thread `k` has seen it ring. -/
structure BeginsCall (k i id : Nat) (c : CallObj) (s : St) : Prop where
  alive : s.alive = true
  object : s.calls[i]? = some c
  numbered : c.id = id ∧ id ≠ 0
  outgoing : c.incoming = false
  active : c.active = true
  unanswered : c.answered = false
  table : dictGet s.activeCalls (id : Int) = some i
  thread : ∃ p, s.pollers[k]? = some p ∧ p.expectedState = 1 ∧ p.callId = some (id : Int) ∧ p.done = false ∧ 0 < p.timeLeft

/-- What each of the next `n` queries shows is what is on the line at its time. -/
def Truthful (env : Env) (wait : List PyStr → Nat) (k id : Nat) (line : Nat → Stage) : Nat → Nat → St → Prop
  | 0, _, _ => True
  | n + 1, t, s => polling k s = true →
      (∃ o, (line (t + 500)).Listed id o ∧ Queried env.reply s.log (clccQuery env s).2.log o) ∧
        Truthful env wait k id line n (t + 500 + roundTime env wait k s) ((Event.poll k).run env s).2

end Gsm.Spec
