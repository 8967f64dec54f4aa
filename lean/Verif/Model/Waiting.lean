import Verif.Model.ThreadCalls
/-! # Threads that wait for other threads: gsmmodem/modem.py:658-742, 857-888, 935-947, 1002-1019, 1114-1120

`sendUssd`, `dial` and `sendSms` create a `threading.Event`, assign it to an attribute of the modem object, and wait
for it; the thread that handles the awaited notification sets the event that the attribute has then. Which event
this is matters when several threads wait, so the events created for each attribute are counted here.

`Event.wait(timeout)` is one step, which sees whether the event is set: the schedule decides when the time is over.
Other simplifications as in `Verif.Model.Threads` and `Verif.Model.ThreadCalls`; the thread that polls the state of
a call that is dialled is one of the threads from the beginning. -/
namespace Gsm

/-- The attributes for events. -/
inductive Slot
  | ussd | dial | report
  deriving DecidableEq, Repr

/-- Assigns `None`, or an event and whether it is set. -/
def St.withEvent (s : St) : Slot → Option Bool → St
  | .ussd, b => { s with ussdSessionEvent := b }
  | .dial, b => { s with dialEvent := b }
  | .report, b => { s with smsStatusReportEvent := b }

/-- The modem object, the events created for each attribute (whether they are set), and which of them the attribute has. -/
structure Shared where
  st : St
  events : Slot → List Bool := fun _ => []
  attr : Slot → Option Nat := fun _ => none

/-- `self._xEvent = threading.Event()`. -/
def Shared.create (w : Shared) (x : Slot) : Shared where
  st := w.st.withEvent x (some false)
  events := fun y => if y = x then w.events x ++ [false] else w.events y
  attr := fun y => if y = x then some (w.events x).length else w.attr y

/-- `self._xEvent = None`. -/
def Shared.forget (w : Shared) (x : Slot) : Shared where
  st := w.st.withEvent x none
  events := w.events
  attr := fun y => if y = x then none else w.attr y

/-- `event.set()`. -/
def Shared.setEvent (w : Shared) (x : Slot) (e : Nat) : Shared where
  st := if w.attr x = some e then w.st.withEvent x (some true) else w.st
  events := fun y => if y = x then (w.events x).set e true else w.events y
  attr := w.attr

/-- A command is written. -/
def Shared.written (w : Shared) (text : PyStr) : Shared := { w with st := { w.st with log := text :: w.st.log } }

/-- What a thread has still to do. -/
inductive Proc (α : Type)
  | done (r : Except PyErr α)
  | io (text : PyStr) (k : Reply → Proc α)
  | act (f : Limits → Shared → Shared) (k : Limits → Shared → Proc α)

namespace Proc

def bind {α β : Type} : Proc α → (α → Proc β) → Proc β
  | done (.ok a), f => f a
  | done (.error e), _ => done (.error e)
  | io t k, f => io t fun r => (k r).bind f
  | act g k, f => act g fun env w => (k env w).bind f

instance : Monad Proc where
  pure a := done (.ok a)
  bind := bind

def raise {α : Type} (e : PyErr) : Proc α := done (.error e)
def ofExcept {α : Type} (r : Except PyErr α) : Proc α := done r
def look : Proc Shared := act (fun _ w => w) fun _ w => pure w
def change (f : Shared → Shared) : Proc Unit := act (fun _ w => f w) fun _ _ => pure ()
def changeSt (f : St → St) : Proc Unit := change fun w => { w with st := f w.st }

def step {α : Type} (env : Env) : Proc α → Shared → Proc α × Shared
  | done r, w => (done r, w)
  | io t k, w => (k (env.reply (t :: w.st.log)), w.written t)
  | act f k, w => (k env w, f env w)

def run {α : Type} (env : Env) : Proc α → Shared → Except PyErr α × Shared
  | done r, w => (r, w)
  | io t k, w => run env (k (env.reply (t :: w.st.log))) (w.written t)
  | act f k, w => run env (k env w) (f env w)

/-- `try: p except Exception: h; raise`. -/
def onError {α : Type} (p : Proc α) (h : Proc Unit) : Proc α :=
  match p with
  | done (.ok a) => done (.ok a)
  | done (.error e) => do
    h
    raise e
  | io t k => io t fun r => (k r).onError h
  | act f k => act f fun env w => (k env w).onError h

/-- Steps that have nothing to do with events. -/
def lift {α : Type} : Prog α → Proc α
  | .done r => done r
  | .io t k => io t fun r => lift (k r)
  | .act f k => act (fun env w => { w with st := f env w.st }) fun env w => lift (k env w.st)

/-- `self._xEvent`, of which an attribute is used. -/
def eventOf (x : Slot) : Proc Nat := do
  let w ← look
  match w.attr x with
  | some e => pure e
  | none => raise .attributeError

/-- `self._xEvent.wait(timeout)`. -/
def wait (x : Slot) : Proc Bool := do
  let e ← eventOf x
  let w ← look
  pure ((w.events x)[e]?.getD false)

/-- `self._xEvent.set()`. -/
def set (x : Slot) : Proc Unit := do
  let e ← eventOf x
  change fun w => w.setEvent x e

/-! ### The threads that tell -/

/-- `_handleUssd`, modem.py:1114-1120. -/
def handleUssd (lines : List PyStr) : Proc Unit := do
  let w ← look
  if (w.attr .ussd).isSome then
    let r ← ofExcept (parseCusdResponse lines)
    changeSt fun s => { s with ussdResponse := some r }
    set .ussd

/-- `_handleSmsStatusReport`, modem.py:1002-1019. -/
def handleSmsStatusReport (notificationLine : PyStr) : Proc Unit := do
  match rxGroups cdsiRegex notificationLine with
  | some [msgMemory, msgIndex] =>
    let report ← lift (Prog.readStoredSms msgIndex (some msgMemory))
    lift (Prog.deleteStoredSms msgIndex)
    match report with
    | .received .. => raise .attributeError
    | .report _ reference _ _ _ deliveryStatus =>
      lift (Prog.updateSent report reference deliveryStatus)
      let w ← look
      if (w.attr .report).isSome then set .report
      else lift (Prog.callback (.statusReport report))
  | _ => pure ()

/-- modem.py:941-947. -/
def tellDial (callId callType : Int) : Proc Unit := do
  changeSt fun s => { s with dialResponse := some (callId, callType) }
  set .dial

/-- `_handleCallInitiated`, modem.py:935-947, with the groups of the notification. -/
def handleInitiatedGroups (groups : List PyStr) : Proc Unit := do
  let w ← look
  if (w.attr .dial).isSome then
    match groups with
    | g0 :: g1 :: _ => do
      let a ← ofExcept (pyInt g0)
      let b ← ofExcept (pyInt g1)
      tellDial a b
    | [g0] => do
      let a ← ofExcept (pyInt g0)
      tellDial a 1
    | [] => raise .indexError

/-- The same with the id and type. -/
def handleCallInitiated (callId callType : Int) : Proc Unit := do
  let w ← look
  if (w.attr .dial).isSome then tellDial callId callType

/-- The loop over the lines, modem.py:863-888. -/
def dispatchLoop (lines : List PyStr) : List PyStr → Proc Unit
  | [] => pure ()
  | line :: rest => do
    let w ← look
    match recognise (callTable w.st.callStatusUpdates) line with
    | some .ring => lift (Prog.handleIncomingCall lines)
    | some .cmti => lift (Prog.handleSmsReceived line)
    | some .cusd => handleUssd lines
    | some .cdsi => handleSmsStatusReport line
    | some (.call h g) => if h = .initiated then handleInitiatedGroups g else lift (Prog.runCallHandler h g)
    | none => dispatchLoop lines rest

/-- What follows the query, modem.py:1178-1202: only the beginning of a call has to do with events. -/
def pollStep (p : Poller) : Option (Int × Int × Int × Int) → Proc Poller
  | some (cid, direction, stat, type) =>
    if direction = 0 ∧ p.expectedState = 0 ∧ (stat = 2 ∨ stat = 3) then do
      handleCallInitiated cid type
      pure { p with callId := some cid, expectedState := 1 }
    else lift (Prog.pollStep p (some (cid, direction, stat, type)))
  | none => lift (Prog.pollStep p none)

/-- One round of `_pollCallStatus`. -/
def pollRound (p : Poller) : Proc Poller := do
  let w ← look
  if w.st.alive ∧ ¬ p.done ∧ 0 < p.timeLeft then do
    let seen ← lift Prog.clccQuery
    pollStep (if p.expectedState = 0 then { p with timeLeft := p.timeLeft - 1 } else p) seen
  else pure { p with done := true }

def poll : Nat → Poller → Proc Unit
  | 0, _ => pure ()
  | n + 1, p => do
    let p ← pollRound p
    if p.done then pure () else poll n p

/-! ### The threads that wait -/

/-- `sendUssd` from the answer to the command on, modem.py:688-700. -/
def awaitUssd (cusdResponse : List PyStr) : Proc (Option Ussd) :=
  if cusdResponse.length > 1 ∧ lineStartingWith py!"+CUSD" cusdResponse ≠ none then do
    change fun w => w.forget .ussd
    let r ← ofExcept (parseCusdResponse cusdResponse)
    pure (some r)
  else do
    let ok ← wait .ussd
    change fun w => w.forget .ussd
    if ok then do
      let w ← look
      pure w.st.ussdResponse
    else raise (.timeout none)

/-- `sendUssd`, modem.py:668-700. -/
def sendUssd (ussdString : PyStr) : Proc (Option Ussd) := do
  change fun w => w.create .ussd
  let cusdResponse ← onError (lift (Prog.write (cusdCmd ussdString))) (change fun w => w.forget .ussd)
  awaitUssd cusdResponse

/-- `write('ATD…', waitForResponse=self._waitForAtdResponse)`. -/
def writeAtd (number : PyStr) : Prog Unit := do
  let s ← Prog.look
  if s.waitForAtdResponse then
    let _ ← Prog.write (atdCmd number)
  else Prog.writeNoWait (atdCmd number)

/-- `dial` from the end of the command on, modem.py:734-742. -/
def awaitDial (number : PyStr) (hasCallback : Bool) : Proc Nat := do
  let ok ← wait .dial
  change fun w => w.forget .dial
  if ok then do
    let w ← look
    match w.st.dialResponse with
    | none => raise .typeError
    | some (callId, callType) =>
      lift (Prog.registerCall { incoming := false, id := callId, type := some callType, number := some number, callback := hasCallback })
  else raise (.timeout none)

/-- `dial` on modems that report the beginning of a call, modem.py:711-720, 730-742; `timeout` in half seconds. -/
def dialWait (number : PyStr) (timeout : Nat) (hasCallback : Bool) : Proc Nat := do
  change fun w => w.create .dial
  onError (lift (writeAtd number)) (change fun w => w.forget .dial)
  let w ← look
  if w.st.mustPollCallStatus then
    changeSt fun s => { s with pollers := s.pollers ++ [⟨0, none, if timeout = 0 then 1999998 else timeout, false⟩] }
  awaitDial number hasCallback

/-- `sendSms` from the creation of the event on, modem.py:659-666. -/
def awaitReport (i : Nat) : Proc Nat := do
  change fun w => w.create .report
  let ok ← wait .report
  change fun w => w.forget .report
  if ok then pure i else raise (.timeout none)

/-- `sendSms` with `waitForDeliveryReport`, modem.py:641-666. -/
def sendSmsWait [PyUnicode] (destination text : PyStr) (sendFlash : Bool) : Proc Nat := do
  let i ← lift (Prog.sendSms destination text sendFlash)
  awaitReport i

end Proc

/-- What a thread does. -/
inductive Job
  | task (t : Task)
  | ussd (ussdString : PyStr)
  | dial (number : PyStr) (timeout : Nat) (hasCallback : Bool)
  | sendWait (destination text : PyStr) (flash : Bool)

/-- Only what has to do with events differs from `Task.prog`. -/
def Task.proc [PyUnicode] : Task → Proc Unit
  | message (.statusReport l) => Proc.handleSmsStatusReport l
  | notify lines => Proc.dispatchLoop lines lines
  | poll n p => Proc.poll n p
  | t => Proc.lift t.prog

/-- What a method returns. -/
inductive Value
  | nothing
  | ussd (u : Option Ussd)
  | object (i : Nat)
  deriving DecidableEq, Repr

def Job.proc [PyUnicode] : Job → Proc Value
  | task t => do
    t.proc
    pure .nothing
  | ussd s => do
    let r ← Proc.sendUssd s
    pure (.ussd r)
  | dial n t cb => do
    let i ← Proc.dialWait n t cb
    pure (.object i)
  | sendWait d t f => do
    let i ← Proc.sendSmsWait d t f
    pure (.object i)

/-- The threads take steps in the order of the schedule. -/
def runProcs (env : Env) : List Nat → List (Proc Value) × Shared → List (Proc Value) × Shared
  | [], x => x
  | i :: is, (threads, w) =>
    match threads[i]? with
    | none => runProcs env is (threads, w)
    | some p => runProcs env is (threads.set i (p.step env w).1, (p.step env w).2)

/-- The jobs, each in a thread of its own. -/
def performJobs [PyUnicode] (env : Env) (schedule : List Nat) (jobs : List Job) (w : Shared) : List (Proc Value) × Shared :=
  runProcs env schedule (jobs.map Job.proc, w)

end Gsm
