import Verif.Model.Threads
import Verif.Model.ModemCalls
/-! # Calls in several threads: gsmmodem/modem.py:668-742, 857-989, 1114-1354 in atomic steps

The steps are those of `Verif.Model.Threads`. A `for` loop over `self.activeCalls` takes one step for each call; it
notices when the number of calls has changed since it began. A statement such as `self.activeCalls[callId].answered = False`
is three steps: it looks the call up, changes its attribute, and calls the callback.

Simplifications: when calls were removed and as many added during a loop, it goes on with the calls it began with;
threads that wait for an event (`sendUssd`, `dial` on modems that report the beginning of a call) are in `Verif.Model.Waiting`. -/
namespace Gsm
namespace Prog

/-- `try: p except …`. -/
def except {α : Type} (p : Prog α) (c : PyErr → Bool) (h : PyErr → Prog α) : Prog α :=
  match p with
  | done (.ok a) => done (.ok a)
  | done (.error e) => if c e then h e else done (.error e)
  | io t k => io t fun r => (k r).except c h
  | act f k => act f fun env s => (k env s).except c h

def tryCommand {α : Type} (p : Prog α) : Prog (Option α) :=
  except (do let a ← p; pure (some a)) (fun e => match e with | .command _ _ => true | _ => false) (fun _ => pure none)

/-- `write` without waiting for an answer. -/
def writeNoWait (data : PyStr) : Prog Unit := change fun s => { s with log := (data ++ [13]) :: s.log }

/-- `_handleUssd`, modem.py:1114-1120. -/
def handleUssd (lines : List PyStr) : Prog Unit := do
  let s ← look
  if s.ussdSessionEvent.isSome then
    let r ← ofExcept (parseCusdResponse lines)
    change fun s => { s with ussdResponse := some r }
    act (fun _ s => if s.ussdSessionEvent.isSome then { s with ussdSessionEvent := some true } else s) fun _ s =>
      if s.ussdSessionEvent.isSome then pure () else raise .attributeError

/-- An attribute of a call. -/
def changeCall (i : Nat) (f : CallObj → CallObj) : Prog Unit := change fun s => { s with calls := s.calls.modify i f }

/-- `call.answered = v` (property setter, modem.py:1233-1238). -/
def setAnswered (i : Nat) (v : Bool) : Prog Unit := do
  changeCall i fun c => { c with answered := v }
  let s ← look
  match s.calls[i]? with
  | some c => if c.callback then callback (.callStatus i)
  | none => pure ()

/-- A new call object is put into `activeCalls` under its id. -/
def registerCall (c : CallObj) : Prog Nat :=
  act (fun _ s => { s with calls := s.calls ++ [c], activeCalls := dictSet s.activeCalls c.id s.calls.length }) fun _ s => pure s.calls.length

/-- The same with the id `len(self.activeCalls) + 1`, which is found out before. -/
def registerNext (c : CallObj) : Prog Nat := do
  let s ← look
  registerCall { c with id := (s.activeCalls.length : Int) + 1 }

/-- `del self.activeCalls[callId]`. -/
def removeCall (callId : Int) : Prog Unit :=
  act (fun _ s => { s with activeCalls := dictDel s.activeCalls callId }) fun _ s =>
    if (dictGet s.activeCalls callId).isSome then pure () else raise .keyError

/-- `self.activeCalls[callId]`. -/
def lookUp (callId : Int) : Prog Nat := do
  let s ← look
  match dictGet s.activeCalls callId with
  | some i => pure i
  | none => raise .keyError

/-- `next` of an iterator over a dictionary that had `size` entries. -/
def sameSize (size : Nat) : Prog Unit := do
  let s ← look
  if s.activeCalls.length = size then pure () else raise .runtimeError

/-- `call.ringCount += 1`: reads and then assigns. -/
def countRing (i : Nat) : Prog Unit := do
  let s ← look
  match s.calls[i]? with
  | some c => changeCall i fun c' => { c' with ringCount := c.ringCount + 1 }
  | none => pure ()

/-- The loop over the active calls, modem.py:925-928. -/
def ringLoop (callerNumber : Option PyStr) (size : Nat) : List (Int × Nat) → Option Nat → Prog (Option Nat)
  | [], call => do
    sameSize size
    pure call
  | (_, i) :: rest, call => do
    sameSize size
    let s ← look
    match s.calls[i]? with
    | some c =>
      if c.number = callerNumber then
        if c.incoming then
          countRing i
          ringLoop callerNumber size rest (some i)
        else raise .attributeError
      else ringLoop callerNumber size rest call
    | none => ringLoop callerNumber size rest call

/-- The call type in a `+CRING` line, modem.py:892-907. -/
def ringType (ringLine : PyStr) : Prog (Option PyStr) := do
  let s ← look
  if s.extendedIncomingCallIndication then
    match afterSpace ringLine with
    | some t => pure (some t)
    | none => do
      match ← tryCommand (write py!"AT+CRC=1") with
      | some _ => pure none
      | none => do
        change fun s => { s with extendedIncomingCallIndication := false }
        pure none
  else pure none

/-- `IncomingCall.CALL_TYPE_MAP[callType]`. -/
def callTypeOf : Option PyStr → Prog (Option Int)
  | none => pure none
  | some t => if t = py!"VOICE" then pure (some 0) else raise .keyError

/-- modem.py:929-933: the id, the new call, the callback. -/
def newIncoming (callType number ton : Option PyStr) : Prog Unit := do
  let s ← look
  let type ← callTypeOf callType
  let i ← registerCall { incoming := true, id := (s.activeCalls.length : Int) + 1, type := type, number := number, ton := ton, ringing := true, ringCount := 1 }
  callback (.incomingCall i)

/-- `_handleIncomingCall`, modem.py:890-933. -/
def handleIncomingCall : List PyStr → Prog Unit
  | [] => raise .indexError
  | ringLine :: lines => do
    let callType ← ringType ringLine
    let s ← look
    let s' ← look
    match ← ringLoop (callerOf s lines).1 s'.activeCalls.length s'.activeCalls none with
    | some i => callback (.incomingCall i)
    | none => newIncoming callType (callerOf s lines).1 (callerOf s lines).2

/-- modem.py:941-947: the response, and the event (which may have become `None`). -/
def tellDial (callId callType : Int) : Prog Unit := do
  change fun s => { s with dialResponse := some (callId, callType) }
  act (fun _ s => if s.dialEvent.isSome then { s with dialEvent := some true } else s) fun _ s =>
    if s.dialEvent.isSome then pure () else raise .attributeError

/-- `_handleCallInitiated`, modem.py:935-947, with the id and type. -/
def handleCallInitiated (callId callType : Int) : Prog Unit := do
  let s ← look
  if s.dialEvent.isSome then tellDial callId callType

/-- The loops over the active calls, modem.py:958-961, 974-978: the first outgoing call. -/
def firstOutgoing (filterUnanswered : Bool) (size : Nat) : List (Int × Nat) → Prog (Option Nat)
  | [] => do
    sameSize size
    pure none
  | (_, i) :: rest => do
    sameSize size
    let s ← look
    if (match s.calls[i]? with | some c => !c.incoming && (!filterUnanswered || !c.answered) | none => false) then pure (some i)
    else firstOutgoing filterUnanswered size rest

/-- `_handleCallAnswered`, modem.py:949-964. -/
def handleCallAnswered : Option Int → Prog Unit
  | some callId => do
    let i ← lookUp callId
    setAnswered i true
  | none => do
    let s ← look
    match ← firstOutgoing true s.activeCalls.length s.activeCalls with
    | some i => setAnswered i true
    | none => pure ()

/-- modem.py:979-982. -/
def endCall : Option Int → Prog Unit
  | none => pure ()
  | some callId =>
    if callId ≠ 0 then do
      let s ← look
      if (dictGet s.activeCalls callId).isSome then
        let i ← lookUp callId
        setAnswered i false
        let i ← lookUp callId
        changeCall i fun c => { c with active := false }
        removeCall callId
    else pure ()

/-- `_handleCallEnded`, modem.py:966-989. -/
def handleCallEnded (callId : Option Int) (search filterUnanswered : Bool) : Prog Unit := do
  if search then
    let s ← look
    match ← firstOutgoing filterUnanswered s.activeCalls.length s.activeCalls with
    | some i =>
      let s ← look
      endCall ((s.calls[i]?).map (·.id))
    | none => endCall callId
  else endCall callId

def runCallHandler (h : CallHandler) (groups : List PyStr) : Prog Unit := do
  match h with
  | .initiated =>
    let s ← look
    if s.dialEvent.isSome then
      match groups with
      | g0 :: g1 :: _ => do
        let a ← ofExcept (pyInt g0)
        let b ← ofExcept (pyInt g1)
        tellDial a b
      | [g0] => do
        let a ← ofExcept (pyInt g0)
        tellDial a 1
      | [] => raise .indexError
  | .answered =>
    match groups with
    | g0 :: _ :: _ => do
      let a ← ofExcept (pyInt g0)
      handleCallAnswered (some a)
    | _ => handleCallAnswered none
  | .ended =>
    match groups with
    | g0 :: _ => do
      let a ← ofExcept (pyInt g0)
      handleCallEnded (some a) false false
    | [] => handleCallEnded none true false
  | .rejected =>
    match groups with
    | g0 :: _ => do
      let a ← ofExcept (pyInt g0)
      handleCallEnded (some a) false true
    | [] => handleCallEnded none true true

/-- The loop over the lines, modem.py:863-888. -/
def dispatchLoop (lines : List PyStr) : List PyStr → Prog Unit
  | [] => pure ()
  | line :: rest => do
    let s ← look
    match recognise (callTable s.callStatusUpdates) line with
    | some .ring => handleIncomingCall lines
    | some .cmti => handleSmsReceived line
    | some .cusd => handleUssd lines
    | some .cdsi => handleSmsStatusReport line
    | some (.call h g) => runCallHandler h g
    | none => dispatchLoop lines rest

/-- The query of one round, modem.py:1174-1187: the first four groups. -/
def clccQuery : Prog (Option (Int × Int × Int × Int)) :=
  except (do
    let ls ← write py!"AT+CLCC"
    let line ← ofExcept (match ls with | [] => .error .indexError | l :: _ => .ok l)
    match rxGroups clccRegex line with
    | some (a :: b :: c :: d :: _) => do
      let a ← ofExcept (pyInt a)
      let b ← ofExcept (pyInt b)
      let c ← ofExcept (pyInt c)
      let d ← ofExcept (pyInt d)
      pure (some (a, b, c, d))
    | _ => pure none) (fun e => match e with | .timeout _ => true | _ => false) (fun _ => pure none)

/-- What follows the query, modem.py:1178-1202. -/
def pollStep (p : Poller) : Option (Int × Int × Int × Int) → Prog Poller
  | some (cid, direction, stat, type) =>
    if direction = 0 then
      if p.expectedState = 0 then
        if stat = 2 ∨ stat = 3 then do
          handleCallInitiated cid type
          pure { p with callId := some cid, expectedState := 1 }
        else pure p
      else if p.expectedState = 1 then
        if stat = 0 then do
          handleCallAnswered (some cid)
          pure { p with callId := some cid, expectedState := 2 }
        else pure p
      else pure p
    else pure p
  | none =>
    if p.expectedState = 2 then do
      handleCallEnded p.callId false false
      pure { p with done := true }
    else if p.expectedState = 1 then do
      handleCallEnded p.callId false true
      pure { p with done := true }
    else pure p

/-- One round of `_pollCallStatus`. -/
def pollRound (p : Poller) : Prog Poller := do
  let s ← look
  if s.alive ∧ ¬ p.done ∧ 0 < p.timeLeft then do
    let seen ← clccQuery
    pollStep (if p.expectedState = 0 then { p with timeLeft := p.timeLeft - 1 } else p) seen
  else pure { p with done := true }

/-- Some rounds. -/
def poll : Nat → Poller → Prog Unit
  | 0, _ => pure ()
  | n + 1, p => do
    let p ← pollRound p
    if p.done then pure () else poll n p

/-- `dial` without waiting for the beginning of the call, modem.py:721-728. -/
def dialNow (number : PyStr) (hasCallback : Bool) : Prog Unit := do
  let s ← look
  if s.waitForAtdResponse then
    let _ ← write (atdCmd number)
  else writeNoWait (atdCmd number)
  let _ ← registerNext { incoming := false, id := 0, type := some 0, number := some number, callback := hasCallback }

/-- `self.ringing = False` of an incoming call, modem.py:1320. -/
def stopRinging (i : Nat) : Prog Unit := changeCall i fun c => if c.incoming then { c with ringing := false } else c

/-- modem.py:1278-1281. -/
def hangupActive (i : Nat) (c : CallObj) : Prog Unit :=
  if c.active then do
    let _ ← write py!"ATH"
    setAnswered i false
    changeCall i fun c => { c with active := false }
  else pure ()

/-- modem.py:1282-1283. -/
def removeIfThere (callId : Int) : Prog Unit := do
  let s ← look
  if (dictGet s.activeCalls callId).isSome then removeCall callId

/-- `Call.hangup` and `IncomingCall.hangup`, modem.py:1272-1283, 1318-1321. -/
def hangup (i : Nat) : Prog Unit := do
  stopRinging i
  let s ← look
  match s.calls[i]? with
  | none => pure ()
  | some c => do
    hangupActive i c
    removeIfThere c.id

/-- `IncomingCall.answer`, modem.py:1308-1316. -/
def answer (i : Nat) : Prog Unit := do
  let s ← look
  match s.calls[i]? with
  | none => pure ()
  | some c =>
    if c.incoming ∧ c.ringing then do
      let _ ← write py!"ATA"
      changeCall i fun c => { c with ringing := false }
      setAnswered i true

/-- `sendDtmfTone`, modem.py:1240-1271. -/
def sendDtmfTone (i : Nat) (tones : PyStr) : Prog Unit := do
  let s ← look
  match s.calls[i]? with
  | none => pure ()
  | some c =>
    if c.answered then do
      let cmd ← ofExcept (dtmfCmd (dtmfBase s c) tones)
      except (do let _ ← write cmd) isCmeError (fun e => raise (dtmfError e))
    else raise .invalidState

end Prog

/-- What a thread does. -/
inductive Task
  | message (m : Method)
  | notify (lines : List PyStr)
  | poll (rounds : Nat) (p : Poller)
  | dial (number : PyStr) (hasCallback : Bool)
  | answer (call : Nat)
  | hangup (call : Nat)
  | dtmf (call : Nat) (tones : PyStr)

def Task.prog [PyUnicode] : Task → Prog Unit
  | message m => m.prog
  | notify lines => Prog.dispatchLoop lines lines
  | poll n p => Prog.poll n p
  | dial n cb => Prog.dialNow n cb
  | answer i => Prog.answer i
  | hangup i => Prog.hangup i
  | dtmf i t => Prog.sendDtmfTone i t

/-- The tasks, each in a thread of its own. -/
def performTasks [PyUnicode] (env : Env) (schedule : List Nat) (tasks : List Task) (s : St) : List (Prog Unit) × St :=
  runThreads env schedule (tasks.map Task.prog, s)

end Gsm
