import Verif.Model.ThreadConnect
/-! # The expressions for stored messages: gsmmodem/modem.py:122-127, 293-294, 523-530, 545-552, 1038-1058

The regular expressions that `readStoredSms` needs are `None` until `_compileSmsRegexes` has been called in the mode that is
used; then an attempt to use them raises an `AttributeError`. All other models take them for compiled. Here it is part of the
state which of them are. -/
namespace Gsm

/-- The modem object, and which expressions have been compiled: `CMGR_SM_DELIVER_REGEX_TEXT`, `CMGR_SM_REPORT_REGEXT_TEXT`, `CMGR_REGEX_PDU`. -/
structure Lib where
  st : St
  deliver : Bool := false
  report : Bool := false
  pdu : Bool := false

/-- What a thread has still to do. -/
inductive Comp (α : Type)
  | done (r : Except PyErr α)
  | io (text : PyStr) (k : Reply → Comp α)
  | act (f : Limits → Lib → Lib) (k : Limits → Lib → Comp α)

namespace Comp

def bind {α β : Type} : Comp α → (α → Comp β) → Comp β
  | done (.ok a), f => f a
  | done (.error e), _ => done (.error e)
  | io t k, f => io t fun r => (k r).bind f
  | act g k, f => act g fun env x => (k env x).bind f

instance : Monad Comp where
  pure a := done (.ok a)
  bind := bind

def raise {α : Type} (e : PyErr) : Comp α := done (.error e)
def look : Comp Lib := act (fun _ x => x) fun _ x => pure x
def change (f : Lib → Lib) : Comp Unit := act (fun _ x => f x) fun _ _ => pure ()

/-- What is done without the expressions. -/
def lift {α : Type} : Prog α → Comp α
  | .done r => done r
  | .io t k => io t fun r => lift (k r)
  | .act f k => act (fun env x => { x with st := f env x.st }) fun env x => lift (k env x.st)

def step {α : Type} (env : Env) : Comp α → Lib → Comp α × Lib
  | done r, x => (done r, x)
  | io t k, x => (k (env.reply (t :: x.st.log)), { x with st := { x.st with log := t :: x.st.log } })
  | act f k, x => (k env x, f env x)

def run {α : Type} (env : Env) : Comp α → Lib → Except PyErr α × Lib
  | done r, x => (r, x)
  | io t k, x => run env (k (env.reply (t :: x.st.log))) { x with st := { x.st with log := t :: x.st.log } }
  | act f k, x => run env (k env x) (f env x)

/-- `_compileSmsRegexes`, modem.py:545-552. -/
def compileRegexes : Comp Unit := do
  let x ← look
  if x.st.smsTextMode then
    let x ← look
    if x.deliver then pure ()
    else
      change fun x => { x with deliver := true }
      change fun x => { x with report := true }
  else
    let x ← look
    if x.pdu then pure () else change fun x => { x with pdu := true }

/-- An expression is used: `None.match` is an `AttributeError`. -/
def need (f : Lib → Bool) : Comp Unit := do
  let x ← look
  if f x then pure () else raise .attributeError

/-- Whether the first expression matches, modem.py:1039-1040. -/
def looksDelivered (msgData : List PyStr) : Bool := ((msgData.head?.bind (rxGroups cmgrTextRegex)).isSome)

/-- `readStoredSms`, modem.py:1021-1073. -/
def readStoredSms (index : PyStr) (memory : Option PyStr) : Comp Msg := do
  lift (Prog.setSmsMemory memory)
  let msgData ← lift (Prog.write (cmgrCmd index))
  let x ← look
  if x.st.smsTextMode then
    need Lib.deliver
    if looksDelivered msgData then pure () else need Lib.report
    lift (Prog.ofExcept (parseCmgrText msgData))
  else
    need Lib.pdu
    lift (Prog.ofExcept (parseCmgrPdu msgData))

/-- `_handleSmsReceived`, modem.py:991-1000. -/
def handleSmsReceived (notificationLine : PyStr) : Comp Unit := do
  match rxGroups cmtiRegex notificationLine with
  | some [msgMemory, msgIndex] =>
    let sms ← readStoredSms msgIndex (some msgMemory)
    lift (do
      Prog.deleteStoredSms msgIndex
      Prog.callback (.smsReceived sms))
  | _ => pure ()

/-- modem.py:1009-1019. -/
def reportRead (msgIndex : PyStr) (report : Msg) : Prog Unit := do
  Prog.deleteStoredSms msgIndex
  match report with
  | .received .. => Prog.raise .attributeError
  | .report _ reference _ _ _ deliveryStatus =>
    Prog.updateSent report reference deliveryStatus
    .act (fun _ s => if s.smsStatusReportEvent.isSome then { s with smsStatusReportEvent := some true } else s) fun _ s =>
      if s.smsStatusReportEvent.isSome then pure () else Prog.callback (.statusReport report)

/-- `_handleSmsStatusReport`, modem.py:1002-1019. -/
def handleSmsStatusReport (notificationLine : PyStr) : Comp Unit := do
  match rxGroups cdsiRegex notificationLine with
  | some [msgMemory, msgIndex] =>
    let report ← readStoredSms msgIndex (some msgMemory)
    lift (reportRead msgIndex report)
  | _ => pure ()

/-- The loop over the lines, modem.py:863-888. -/
def dispatchLoop (lines : List PyStr) : List PyStr → Comp Unit
  | [] => pure ()
  | line :: rest => do
    let x ← look
    match recognise (callTable x.st.callStatusUpdates) line with
    | some .ring => lift (Prog.handleIncomingCall lines)
    | some .cmti => handleSmsReceived line
    | some .cusd => lift (Prog.handleUssd lines)
    | some .cdsi => handleSmsStatusReport line
    | some (.call h g) => lift (Prog.runCallHandler h g)
    | none => dispatchLoop lines rest

/-- The setter of `smsTextMode`, modem.py:523-530. -/
def setSmsTextMode (textMode : Bool) : Comp Unit := do
  let x ← look
  if textMode ≠ x.st.smsTextMode then
    let x ← look
    if x.st.alive then
      let _ ← lift (Prog.write (py!"AT+CMGF=" ++ (if textMode then py!"1" else py!"0")))
      change fun x => { x with st := { x.st with smsTextMode := textMode } }
      compileRegexes
    else
      change fun x => { x with st := { x.st with smsTextMode := textMode } }
      compileRegexes
  else pure ()

/-- modem.py:289-306. -/
def connectSms : Comp Unit := do
  let _ ← lift (Prog.write py!"AT+COPS=3,0" false)
  let x ← look
  let _ ← lift (Prog.write (py!"AT+CMGF=" ++ (if x.st.smsTextMode then py!"1" else py!"0")))
  compileRegexes
  lift (do
    let currentSmscNumber ← Prog.firstSmsc
    Prog.keepSmsc currentSmscNumber)

/-- `connect`, modem.py:164-364. -/
def connect (pin : Option PyStr) : Comp Unit := do
  lift (Prog.change fun s => { s with alive := true })
  lift (Prog.connectBasics pin)
  let r ← lift Prog.connectIdentify
  lift (Prog.connectCallTable r.1 r.2)
  connectSms
  lift (do
    Prog.connectMemory
    Prog.connectNotifications)

end Comp

def Method.comp [PyUnicode] : Method → Comp Unit
  | read i m => do let _ ← Comp.readStoredSms i m
  | received l => Comp.handleSmsReceived l
  | statusReport l => Comp.handleSmsStatusReport l
  | setTextMode v => Comp.setSmsTextMode v
  | m => .lift m.prog

def Activity.comp [PyUnicode] : Activity → Comp Unit
  | task (.message m) => m.comp
  | task (.notify lines) => Comp.dispatchLoop lines lines
  | task t => .lift t.prog
  | connect pin => Comp.connect pin

/-- The threads take steps in the order of the schedule. -/
def runComps (env : Env) : List Nat → List (Comp Unit) × Lib → List (Comp Unit) × Lib
  | [], x => x
  | i :: is, (threads, x) =>
    match threads[i]? with
    | none => runComps env is (threads, x)
    | some p => runComps env is (threads.set i (p.step env x).1, (p.step env x).2)

/-- The activities, each in a thread of its own. -/
def performWith [PyUnicode] (env : Env) (schedule : List Nat) (activities : List Activity) (x : Lib) : List (Comp Unit) × Lib :=
  runComps env schedule (activities.map Activity.comp, x)

end Gsm
