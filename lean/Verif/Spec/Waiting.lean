import Verif.Model.Waiting
import Verif.Spec.ThreadCalls
import Verif.Spec.Dial
import Verif.Spec.Ussd
import Verif.Spec.Modem
/-! # Specification: threads that wait for other threads -/
namespace Gsm.Spec

/-- The job waits for such an event. -/
def WaitsFor (x : Slot) : Job → Prop
  | .task _ => False
  | .ussd _ => x = .ussd
  | .dial .. => x = .dial
  | .sendWait .. => x = .report

/-- No job but the `i`-th waits for such an event. -/
def OnlyWaits (x : Slot) (i : Nat) (jobs : List Job) : Prop := ∀ j y, j ≠ i → jobs[j]? = some y → ¬ WaitsFor x y

/-- The batch of notifications announces this first. -/
def FirstAnnounced (t : CallTable) (batch : List PyStr) (line : PyStr) (d : Dispatch) : Prop :=
  ∃ pre post, batch = pre ++ line :: post ∧ (∀ l ∈ pre, ∀ d, ¬ Announces (callTable t) l d) ∧ Announces (callTable t) line d

/-- The job brings a USSD result. -/
inductive BringsResult (t : CallTable) : Job → Ussd → Prop
  | notify {batch line u} : FirstAnnounced t batch line .cusd → UssdMeans batch (.ok u) → BringsResult t (.task (.notify batch)) u

/-- The job tells of a call with this id and type that begins. -/
inductive BringsCall (env : Env) (t : CallTable) : Job → Nat → Nat → Prop
  | notify {batch pre line post a b} : batch = pre ++ line :: post → (∀ l ∈ pre, ∀ d, ¬ Announces (callTable t) l d) → Says t line (.started a b) →
      BringsCall env t (.task (.notify batch)) a b
  | poll {n p log l ls id stat mode} : env.reply log = .lines (l :: ls) → CallLine l id 0 stat mode → stat = 2 ∨ stat = 3 → BringsCall env t (.task (.poll n p)) id mode

/-- A command fails in this way when the modem answers so. -/
inductive FailsWith : Reply → PyErr → Prop
  | late {d} : FailsWith (.timeout d) (.timeout d)
  | empty : FailsWith (.lines []) .indexError
  | refused {ls e} : ResponseMeans ls (.error e) → FailsWith (.lines ls) e

/-- The command can fail in this way: by an answer, or because the modem is busy for too long. -/
def CommandFails (env : Env) (c : PyStr) (e : PyErr) : Prop := e = .recursionError ∨ ∃ log, FailsWith (env.reply (c :: log)) e

/-- The modem can answer so. -/
def CanAnswer (env : Env) (c : PyStr) (ls : List PyStr) : Prop := ∃ log, env.reply (c :: log) = .lines ls ∧ ResponseMeans ls (.ok ls)

/-- The request for USSD. -/
def ussdRequest (text : PyStr) : PyStr := py!"AT+CUSD=1,\"" ++ text ++ py!"\",15\r"

/-- What a request for USSD can end with, when the other threads do `jobs`. -/
inductive UssdEnds (env : Env) (t : CallTable) (jobs : List Job) (text : PyStr) : Except PyErr Value → Prop
  /-- what one of the other threads was told -/
  | told {y u} : y ∈ jobs → BringsResult t y u → UssdEnds env t jobs text (.ok (.ussd (some u)))
  /-- what the answer to the request says already -/
  | said {ls u} : CanAnswer env (ussdRequest text) ls → InAnswer ls → UssdMeans ls (.ok u) → UssdEnds env t jobs text (.ok (.ussd (some u)))
  | wrong {ls e} : CanAnswer env (ussdRequest text) ls → InAnswer ls → UssdMeans ls (.error e) → UssdEnds env t jobs text (.error e)
  | failed {e} : CommandFails env (ussdRequest text) e → UssdEnds env t jobs text (.error e)
  /-- no other thread was told anything in time -/
  | late {ls} : CanAnswer env (ussdRequest text) ls → ¬ InAnswer ls → UssdEnds env t jobs text (.error (.timeout none))

/-- What dialling can end with. -/
inductive DialEnds (env : Env) (t : CallTable) (jobs : List Job) (number : PyStr) (callback : Bool) (calls : List CallObj) : Except PyErr Value → Prop
  | told {y a b i c} : y ∈ jobs → BringsCall env t y a b → calls[i]? = some c → c.incoming = false → c.id = (a : Int) → c.type = some (b : Int) → c.number = some number →
      c.callback = callback → DialEnds env t jobs number callback calls (.ok (.object i))
  | failed {e} : CommandFails env (py!"ATD" ++ number ++ py!";\r") e → DialEnds env t jobs number callback calls (.error e)
  | late : DialEnds env t jobs number callback calls (.error (.timeout none))

/-- A delivery report has been handled since `a`. -/
def ReportSince (a b : St) : Prop := ∃ tr reference status, b.smsTrace = tr ++ a.smsTrace ∧ SmsEvent.report reference status ∈ tr

/-- The message was sent: all its commands were accepted, in this order, and the reference in the answer to the last was recorded. -/
def SentOut [PyUnicode] (env : Env) (destination text : PyStr) (flash : Bool) (a b : St) : Prop :=
  ∃ cs l ls line r tr, SendingCommands destination text flash cs ∧ Performed env.reply cs a.log l ∧ l <:+ b.log ∧ env.reply l = .lines ls ∧
    lineStartingWith py!"+CMGS:" ls = some line ∧ pyInt (line.drop 7) = .ok r ∧ a.smsTrace <:+ tr ∧ .sent r :: tr <:+ b.smsTrace

/-- The thread has got this answer to its request, and is to wait for the result. -/
def waitingUssd (answer : List PyStr) : Proc Value := do
  let r ← Proc.awaitUssd answer
  pure (.ussd r)

/-- The thread has dialled, and is to wait for the beginning of the call. -/
def waitingDial (number : PyStr) (callback : Bool) : Proc Value := do
  let i ← Proc.awaitDial number callback
  pure (.object i)

/-- The thread has sent the message and assigned its event, and is to wait for the report. -/
def waitingReport (i : Nat) : Proc Value := do
  let i ← (do
    let ok ← Proc.wait .report
    Proc.change fun w => w.forget .report
    if ok then pure i else Proc.raise (.timeout none))
  pure (.object i)

/-- The attributes have events that exist. -/
def EventsOk (w : Shared) : Prop := ∀ x e, w.attr x = some e → e < (w.events x).length

/-- The attributes of the modem object are those that have events. -/
def Linked (w : Shared) : Prop := ((w.attr .ussd).isSome = w.st.ussdSessionEvent.isSome) ∧ ((w.attr .dial).isSome = w.st.dialEvent.isSome) ∧
  ((w.attr .report).isSome = w.st.smsStatusReportEvent.isSome)

/-- The job without other threads: nothing happens while it waits. -/
def jobAlone [PyUnicode] : Job → M Value
  | .task x => do
    taskAlone x
    pure .nothing
  | .ussd s => do
    let r ← sendUssd s []
    pure (.ussd r)
  | .dial n t cb => do
    let i ← dial n t cb []
    pure (.object i)
  | .sendWait d t f => do
    let i ← sendSmsWait d t f [] []
    pure (.object i)

/-- Dialling waits only when the modem tells when a call begins. -/
def DialWaits (y : Job) (s : St) : Prop := match y with | .dial .. => s.waitForCallInitUpdate = true | _ => True

end Gsm.Spec
