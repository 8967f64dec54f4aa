import Verif.Model.ModemCalls
/-! # The modem with callbacks that do something

In the model of the modem a user callback is recorded and returns. Here the methods that make callbacks are
given again, with the code of the user as a parameter: a program that may use the modem, change its state,
and raise exceptions. With `callback` for this program they are the methods of the model (C89_same).

`UserProg` is the code of a callback that uses the methods of the modem, looks at their outcomes and goes on or
raises an exception; `userCode` lets such callbacks be made while others run, up to a depth.

Simplifications: a callback is run to its end before anything else happens in the thread that made it; the
recursion limit of Python is counted in callbacks, not in calls of functions. -/
namespace Gsm
open M

/-- The code of the user: what happens when a callback is made. -/
abbrev UserCode := Callback → M Unit

/-! ### Messages -/

/-- The loop over the messages, modem.py:761-762. -/
def callbackAllWith (cb : UserCode) : List Msg → M Unit
  | [] => pure ()
  | m :: ms => do
    cb (.smsReceived m)
    callbackAllWith cb ms

/-- `processStoredSms`, modem.py:744-762. -/
def processStoredSmsWith (cb : UserCode) (unreadOnly : Bool) : M Unit := do
  if !unreadOnly then
    let messages ← listStoredSms 1 none true
    callbackAllWith cb messages
  let messages ← listStoredSms 0 none true
  callbackAllWith cb messages

/-- `_handleSmsReceived`, modem.py:991-1000. -/
def handleSmsReceivedWith (cb : UserCode) (notificationLine : PyStr) : M Unit := do
  match rxGroups cmtiRegex notificationLine with
  | some [msgMemory, msgIndex] =>
    let sms ← readStoredSms msgIndex (some msgMemory)
    deleteStoredSms msgIndex
    cb (.smsReceived sms)
  | _ => pure ()

/-- `_handleSmsStatusReport`, modem.py:1002-1019. -/
def handleSmsStatusReportWith (cb : UserCode) (notificationLine : PyStr) : M Unit := do
  match rxGroups cdsiRegex notificationLine with
  | some [msgMemory, msgIndex] =>
    let report ← readStoredSms msgIndex (some msgMemory)
    deleteStoredSms msgIndex
    match report with
    | .received .. => raise .attributeError
    | .report _ reference _ _ _ deliveryStatus =>
      updateSent report reference deliveryStatus
      let s ← get
      if s.smsStatusReportEvent.isSome then modify fun s => { s with smsStatusReportEvent := some true }
      else cb (.statusReport report)
  | _ => pure ()

/-! ### Calls -/

/-- `call.answered = v` (property setter, modem.py:1233-1238). -/
def setAnsweredWith (cb : UserCode) (i : Nat) (v : Bool) : M Unit := do
  modify fun s => { s with calls := s.calls.modify i fun c => { c with answered := v } }
  let s ← get
  match s.calls[i]? with
  | some c => if c.callback then cb (.callStatus i) else pure ()
  | none => pure ()

/-- `_handleIncomingCall`, modem.py:890-933. -/
def handleIncomingCallWith (cb : UserCode) : List PyStr → M Unit
  | [] => raise .indexError
  | ringLine :: lines => do
    let callType ← ringType ringLine
    let s ← get
    match ← ringLoop (callerOf s lines).1 s.activeCalls none with
    | some i => cb (.incomingCall i)
    | none => do
      let type ← callTypeOf callType
      let i ← registerNext { incoming := true, id := 0, type := type, number := (callerOf s lines).1, ton := (callerOf s lines).2, ringing := true, ringCount := 1 }
      cb (.incomingCall i)

/-- `_handleCallAnswered`, modem.py:949-964. -/
def handleCallAnsweredWith (cb : UserCode) : Option Int → M Unit
  | some callId => do
    let s ← get
    match dictGet s.activeCalls callId with
    | some i => setAnsweredWith cb i true
    | none => raise .keyError
  | none => do
    let s ← get
    match firstOutgoing s true with
    | some i => setAnsweredWith cb i true
    | none => pure ()

/-- modem.py:979-980: `self.activeCalls[callId].active = False` and `del self.activeCalls[callId]`. The callback
of the line before may have changed the table. -/
def endEntry (callId : Int) : M Unit := do
  let s ← get
  match dictGet s.activeCalls callId with
  | none => raise .keyError
  | some i =>
    modify fun s => { s with calls := s.calls.modify i (fun c => { c with active := false }), activeCalls := dictDel s.activeCalls callId }

/-- `_handleCallEnded`, modem.py:966-989. -/
def handleCallEndedWith (cb : UserCode) (callId : Option Int) (search : Bool) (filterUnanswered : Bool) : M Unit := do
  let s ← get
  let callId :=
    if search then
      match firstOutgoing s filterUnanswered with
      | some i => (s.calls[i]?).map (·.id)
      | none => callId
    else callId
  match callId with
  | none => pure ()
  | some id =>
    if id ≠ 0 then
      match dictGet s.activeCalls id with
      | none => pure ()
      | some i =>
        setAnsweredWith cb i false
        endEntry id

/-- `Call.hangup` with `self.active`, modem.py:1278-1281. -/
def hangupActiveWith (cb : UserCode) (i : Nat) (c : CallObj) : M Unit :=
  if c.active then do
    let _ ← write py!"ATH"
    setAnsweredWith cb i false
    modify fun s => { s with calls := s.calls.modify i fun c => { c with active := false } }
  else pure ()

/-- `Call.hangup` and `IncomingCall.hangup`, modem.py:1272-1283, 1318-1321. -/
def hangupWith (cb : UserCode) (i : Nat) : M Unit := do
  let s ← get
  match s.calls[i]? with
  | none => pure ()
  | some c => do
    stopRinging i c
    hangupActiveWith cb i c
    modify fun s => { s with activeCalls := dictDel s.activeCalls c.id }

/-- `IncomingCall.answer`, modem.py:1308-1316. -/
def answerWith (cb : UserCode) (i : Nat) : M Unit := do
  let s ← get
  match s.calls[i]? with
  | none => pure ()
  | some c =>
    if c.incoming ∧ c.ringing then do
      let _ ← write py!"ATA"
      modify fun s => { s with calls := s.calls.modify i fun c => { c with ringing := false } }
      setAnsweredWith cb i true

/-! ### Notifications and polling -/

def runCallHandlerWith (cb : UserCode) (h : CallHandler) (groups : List PyStr) : M Unit := do
  match h with
  | .initiated =>
    let s ← get
    if s.dialEvent.isSome then
      match groups with
      | g0 :: g1 :: _ => do
        let a ← ofExcept (pyInt g0)
        let b ← ofExcept (pyInt g1)
        handleCallInitiated a b
      | [g0] => do
        let a ← ofExcept (pyInt g0)
        handleCallInitiated a 1
      | [] => raise .indexError
  | .answered =>
    match groups with
    | g0 :: _ :: _ => do
      let a ← ofExcept (pyInt g0)
      handleCallAnsweredWith cb (some a)
    | _ => handleCallAnsweredWith cb none
  | .ended =>
    match groups with
    | g0 :: _ => do
      let a ← ofExcept (pyInt g0)
      handleCallEndedWith cb (some a) false false
    | [] => handleCallEndedWith cb none true false
  | .rejected =>
    match groups with
    | g0 :: _ => do
      let a ← ofExcept (pyInt g0)
      handleCallEndedWith cb (some a) false true
    | [] => handleCallEndedWith cb none true true

def dispatchLoopWith (cb : UserCode) (lines : List PyStr) : List PyStr → M Unit
  | [] => pure ()
  | line :: rest => do
    let s ← get
    match recognise (callTable s.callStatusUpdates) line with
    | some .ring => handleIncomingCallWith cb lines
    | some .cmti => handleSmsReceivedWith cb line
    | some .cusd => handleUssd lines
    | some .cdsi => handleSmsStatusReportWith cb line
    | some (.call h g) => runCallHandlerWith cb h g
    | none => dispatchLoopWith cb lines rest

/-- `__threadedHandleModemNotification`, modem.py:857-888. -/
def handleNotificationWith (cb : UserCode) (lines : List PyStr) : M Unit := dispatchLoopWith cb lines lines

/-- modem.py:1178-1202. -/
def pollStepWith (cb : UserCode) (p : Poller) : Option (Int × Int × Int × Int) → M Poller
  | some (cid, direction, stat, type) =>
    if direction = 0 then
      if p.expectedState = 0 then
        if stat = 2 ∨ stat = 3 then do
          handleCallInitiated cid type
          pure { p with callId := some cid, expectedState := 1 }
        else pure p
      else if p.expectedState = 1 then
        if stat = 0 then do
          handleCallAnsweredWith cb (some cid)
          pure { p with callId := some cid, expectedState := 2 }
        else pure p
      else pure p
    else pure p
  | none =>
    if p.expectedState = 2 then do
      handleCallEndedWith cb p.callId false false
      pure { p with done := true }
    else if p.expectedState = 1 then do
      handleCallEndedWith cb p.callId false true
      pure { p with done := true }
    else pure p

/-- One round of `_pollCallStatus`. -/
def pollRoundWith (cb : UserCode) (p : Poller) : M Poller := do
  let s ← get
  if s.alive ∧ ¬ p.done ∧ 0 < p.timeLeft then do
    let seen ← clccQuery
    pollStepWith cb (if p.expectedState = 0 then { p with timeLeft := p.timeLeft - 1 } else p) seen
  else pure { p with done := true }

/-- An exception ends the thread it happens in, and no other. -/
def Event.runWith (cb : UserCode) : Event → M Unit
  | .notify lines => fun env s => (.ok (), (handleNotificationWith cb lines env s).2)
  | .poll k => fun env s =>
    match s.pollers[k]? with
    | none => (.ok (), s)
    | some p =>
      match pollRoundWith cb p env s with
      | (.ok p', s) => (.ok (), { s with pollers := s.pollers.set k p' })
      | (.error _, s) => (.ok (), { s with pollers := s.pollers.set k { p with done := true } })

def awaitEventWith (cb : UserCode) (isSet : St → Bool) : List Event → M Bool
  | [] => do
    let s ← get
    pure (isSet s)
  | e :: es => do
    let s ← get
    if isSet s then pure true
    else do
      e.runWith cb
      awaitEventWith cb isSet es

/-! ### Methods that wait -/

/-- `sendSms` with `waitForDeliveryReport`, modem.py:658-666. -/
def sendSmsWaitWith [PyUnicode] (cb : UserCode) (destination text : PyStr) (sendFlash : Bool) (early during : List Event) : M Nat := do
  let i ← sendSms destination text sendFlash
  let _ ← awaitEventWith cb (fun _ => false) early
  modify fun s => { s with smsStatusReportEvent := some false }
  let ok ← awaitEventWith cb (fun s => s.smsStatusReportEvent = some true) during
  modify fun s => { s with smsStatusReportEvent := none }
  if ok then pure i else raise (.timeout none)

/-- `sendUssd`, modem.py:668-700. -/
def sendUssdWith (cb : UserCode) (ussdString : PyStr) (during : List Event) : M (Option Ussd) := do
  modify fun s => { s with ussdSessionEvent := some false }
  let cusdResponse ← except (write (cusdCmd ussdString)) (fun _ => true) (fun e => do
    modify fun s => { s with ussdSessionEvent := none }
    raise e)
  if cusdResponse.length > 1 ∧ lineStartingWith py!"+CUSD" cusdResponse ≠ none then do
    modify fun s => { s with ussdSessionEvent := none }
    let r ← ofExcept (parseCusdResponse cusdResponse)
    pure (some r)
  else do
    let ok ← awaitEventWith cb (fun s => s.ussdSessionEvent = some true) during
    modify fun s => { s with ussdSessionEvent := none }
    if ok then do
      let s ← get
      pure s.ussdResponse
    else raise (.timeout none)

/-- `Ussd.reply`, modem.py:1336-1347. -/
def Ussd.replyWith (cb : UserCode) (u : Ussd) (message : PyStr) (during : List Event) : M (Option Ussd) :=
  if u.sessionActive then sendUssdWith cb message during else raise .invalidState

/-- `dial`, modem.py:701-742. -/
def dialWith (cb : UserCode) (number : PyStr) (timeout : Nat) (hasCallback : Bool) (during : List Event) : M Nat := do
  let s ← get
  if s.waitForCallInitUpdate then do
    modify fun s => { s with dialEvent := some false }
    except (writeAtd number) (fun _ => true) (fun e => do
      modify fun s => { s with dialEvent := none }
      raise e)
    if s.mustPollCallStatus then
      modify fun s => { s with pollers := s.pollers ++ [⟨0, none, if timeout = 0 then 1999998 else timeout, false⟩] }
    let ok ← awaitEventWith cb (fun s => s.dialEvent = some true) during
    modify fun s => { s with dialEvent := none }
    if ok then do
      let s ← get
      match s.dialResponse with
      | none => raise .typeError
      | some (callId, callType) =>
        registerCall { incoming := false, id := callId, type := some callType, number := some number, callback := hasCallback }
    else raise (.timeout none)
  else do
    writeAtd number
    registerNext { incoming := false, id := 0, type := some 0, number := some number, callback := hasCallback }

/-! ### Histories -/

def Op.runWith [PyUnicode] (cb : UserCode) : Op → M Unit
  | .event e => e.runWith cb
  | .process u => processStoredSmsWith cb u
  | .sendWait d t f e du => discard (sendSmsWaitWith cb d t f e du)
  | .ussd s du => discard (sendUssdWith cb s du)
  | .ussdReply u s du => discard (u.replyWith cb s du)
  | .dial n t c du => discard (dialWith cb n t c du)
  | .answer c => answerWith cb c
  | .hangup c => hangupWith cb c
  | op => op.run

/-- A history of operations; the caller survives exceptions. -/
def runOpsWith [PyUnicode] (cb : UserCode) (env : Env) : List Op → St → St
  | [], s => s
  | op :: ops, s => runOpsWith cb env ops (op.runWith cb env s).2

/-! ### Code that uses the modem -/

/-- The code of a callback: it ends, raises an exception, or uses the modem and goes on, depending on the
outcome and on what it finds then. -/
inductive UserProg
  | done
  | raise (e : PyErr)
  | act (op : Op) (next : Except PyErr Unit → St → UserProg)

/-- The code is run; `cb` is what happens when it causes callbacks. -/
def UserProg.run [PyUnicode] (cb : UserCode) : UserProg → M Unit
  | .done => pure ()
  | .raise e => M.raise e
  | .act op next => fun env s => (next (op.runWith cb env s).1 (op.runWith cb env s).2).run cb env (op.runWith cb env s).2

/-- The callbacks of a user, made while others run, up to a depth. Each is recorded. -/
def userCode [PyUnicode] (user : Callback → St → UserProg) : Nat → UserCode
  | 0, _ => M.raise .recursionError
  | depth + 1, c => do
    callback c
    let s ← get
    (user c s).run (userCode user depth)

end Gsm
