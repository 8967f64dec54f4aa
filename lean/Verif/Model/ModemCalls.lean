import Verif.Model.ModemSms
/-! # USSD, calls and notifications: gsmmodem/modem.py:668-742, 847-989, 1114-1354

Simplifications: a notification, a round of a polling thread and a method called by the user run one
after the other (in any order); while a method waits for an event, any of the former may run. -/
namespace Gsm
open M

/-! ### USSD responses, modem.py:1122-1153 -/

/-- `\+CUSD:\s*(\d),"(.*?)",(\d+)` with DOTALL, modem.py:129. -/
def cusdRegex : List Rx :=
  rxLit py!"+CUSD:" ++ [rxStar isS] ++ rxGrp [.ch isD] ++ rxLit py!",\"" ++ rxGrp [.rep anyC 0 none false] ++
    rxLit py!"\"," ++ rxGrp [rxPlus isD]

/-- `list(pattern.finditer(s))`, the groups; `fuel > s.length` is enough, and no match is empty. -/
def rxFindAll (p : List Rx) : Nat → PyStr → List (List PyStr)
  | 0, _ => []
  | _ + 1, [] => match rxMatch? p [] with | some (g, _) => [g] | none => []
  | fuel + 1, c :: s =>
    match rxMatch? p (c :: s) with
    | some (g, rest) => g :: rxFindAll p fuel rest
    | none => rxFindAll p fuel s

/-- Loop over several results, modem.py:1140-1149. -/
def cusdLoop (message : Option PyStr) (sessionActive : Bool) : List (PyStr × PyStr) → Option PyStr × Bool
  | [] => (message, sessionActive)
  | (st, msg) :: rest =>
    if st = py!"2" then cusdLoop message false rest
    else cusdLoop (some msg) (sessionActive && st == py!"1") rest

/-- The groups 1 and 2 of the matches. -/
def cusdPairs (ms : List (List PyStr)) : List (PyStr × PyStr) :=
  ms.filterMap fun g => match g with | [a, b, _] => some (a, b) | _ => none

/-- `_parseCusdResponse`, modem.py:1122-1153. `None.group` is an `AttributeError`. -/
def parseCusdResponse (lines : List PyStr) : Except PyErr Ussd :=
  match lines with
  | [] => .error .indexError
  | [line] =>
    match rxGroups cusdRegex line with
    | some [st, msg, _] => .ok ⟨st == py!"1", some msg⟩
    | _ => .error .attributeError
  | _ =>
    let text := pyJoin [13, 10] lines
    match cusdPairs (rxFindAll cusdRegex (text.length + 1) text) with
    | [] => .error .indexError
    | [(st, msg)] => .ok ⟨st == py!"1", some msg⟩
    | ms => let (message, sessionActive) := cusdLoop none true ms; .ok ⟨sessionActive, message⟩

/-- `_handleUssd`, modem.py:1114-1120. -/
def handleUssd (lines : List PyStr) : M Unit := do
  let s ← get
  if s.ussdSessionEvent.isSome then
    let r ← ofExcept (parseCusdResponse lines)
    modify fun s => { s with ussdResponse := some r, ussdSessionEvent := some true }

/-! ### Calls -/

/-- `call.answered = v` (property setter, modem.py:1233-1238). -/
def setAnswered (i : Nat) (v : Bool) : M Unit := do
  modify fun s => { s with calls := s.calls.modify i fun c => { c with answered := v } }
  let s ← get
  match s.calls[i]? with
  | some c => if c.callback then callback (.callStatus i)
  | none => pure ()

/-- A new call object is put into `activeCalls` under its id. -/
def registerCall (c : CallObj) : M Nat := fun _ s =>
  (.ok s.calls.length, { s with calls := s.calls ++ [c], activeCalls := dictSet s.activeCalls c.id s.calls.length })

/-- The same with the id `len(self.activeCalls) + 1`. -/
def registerNext (c : CallObj) : M Nat := fun env s => registerCall { c with id := (s.activeCalls.length : Int) + 1 } env s

/-- `^\+CLIP:\s*"(\+{0,1}\d+)",(\d+).*$`, modem.py:119. -/
def clipRegex : List Rx :=
  rxLit py!"+CLIP:" ++ [rxStar isS] ++ rxLit py!"\"" ++ rxGrp [rxOpt 43, rxPlus isD] ++ rxLit py!"\"," ++
    rxGrp [rxPlus isD] ++ [rxStar (notC 10), .eol]

/-- The loop over the active calls, modem.py:925-928: counts the ring of every call with this number;
the last one is the result. An outgoing call has no `ringCount`. -/
def ringLoop (callerNumber : Option PyStr) : List (Int × Nat) → Option Nat → M (Option Nat)
  | [], call => pure call
  | (_, i) :: rest, call => do
    let s ← get
    match s.calls[i]? with
    | some c =>
      if c.number = callerNumber then
        if c.incoming then
          modify fun s => { s with calls := s.calls.modify i fun c => { c with ringCount := c.ringCount + 1 } }
          ringLoop callerNumber rest (some i)
        else raise .attributeError
      else ringLoop callerNumber rest call
    | none => ringLoop callerNumber rest call

/-- The call type in a `+CRING` line, modem.py:892-907; a ring without it turns the indication on again. -/
def ringType (ringLine : PyStr) : M (Option PyStr) := do
  let s ← get
  if s.extendedIncomingCallIndication then
    match afterSpace ringLine with
    | some t => pure (some t)
    | none => do
      match ← tryCommand (write py!"AT+CRC=1") with
      | some _ => pure none
      | none => do
        modify fun s => { s with extendedIncomingCallIndication := false }
        pure none
  else pure none

/-- The number and its type in the `+CLIP` line, modem.py:908-922. -/
def callerOf (s : St) (lines : List PyStr) : Option PyStr × Option PyStr :=
  if s.callingLineIdentification then
    match lines with
    | clipLine :: _ =>
      match rxGroups clipRegex clipLine with
      | some [number, ton] => (some number, some ton)
      | _ => (none, none)
    | [] => (none, none)
  else (none, none)

/-- `IncomingCall.CALL_TYPE_MAP[callType]`, modem.py:1287, 1297-1298. -/
def callTypeOf : Option PyStr → M (Option Int)
  | none => pure none
  | some t => if t = py!"VOICE" then pure (some 0) else raise .keyError

/-- `_handleIncomingCall`, modem.py:890-933. -/
def handleIncomingCall : List PyStr → M Unit
  | [] => raise .indexError
  | ringLine :: lines => do
    let callType ← ringType ringLine
    let s ← get
    match ← ringLoop (callerOf s lines).1 s.activeCalls none with
    | some i => callback (.incomingCall i)
    | none => do
      let type ← callTypeOf callType
      let i ← registerNext { incoming := true, id := 0, type := type, number := (callerOf s lines).1, ton := (callerOf s lines).2, ringing := true, ringCount := 1 }
      callback (.incomingCall i)

/-- `_handleCallInitiated`, modem.py:935-947, with the id and type. -/
def handleCallInitiated (callId callType : Int) : M Unit := do
  let s ← get
  if s.dialEvent.isSome then
    modify fun s => { s with dialResponse := some (callId, callType), dialEvent := some true }

/-- The first active outgoing call that is not answered (or any, without `filterUnanswered`). -/
def firstOutgoing (s : St) (filterUnanswered : Bool) : Option Nat :=
  (s.activeCalls.map (·.2)).find? fun i =>
    match s.calls[i]? with
    | some c => !c.incoming && (!filterUnanswered || !c.answered)
    | none => false

/-- `_handleCallAnswered`, modem.py:949-964, with a call id, or without. -/
def handleCallAnswered : Option Int → M Unit
  | some callId => do
    let s ← get
    match dictGet s.activeCalls callId with
    | some i => setAnswered i true
    | none => raise .keyError
  | none => do
    let s ← get
    match firstOutgoing s true with
    | some i => setAnswered i true
    | none => pure ()

/-- `_handleCallEnded`, modem.py:966-989; `search`: whether there is a regex match without groups. -/
def handleCallEnded (callId : Option Int) (search : Bool) (filterUnanswered : Bool) : M Unit := do
  let s ← get
  let callId :=
    if search then
      match firstOutgoing s filterUnanswered with
      | some i => (s.calls[i]?).map (·.id)
      | none => callId
    else callId
  match callId with
  | none => pure ()
  | some id =>
    if id ≠ 0 then
      match dictGet s.activeCalls id with
      | none => pure ()
      | some i =>
        setAnswered i false
        modify fun s => { s with calls := s.calls.modify i (fun c => { c with active := false }), activeCalls := dictDel s.activeCalls id }

/-! ### The tables of call updates, modem.py:251-287 -/

def origRegex : List Rx := rxLit py!"^ORIG:" ++ rxGrp [.ch isD] ++ rxLit py!"," ++ rxGrp [.ch isD] ++ [.eol]
def connRegex : List Rx := rxLit py!"^CONN:" ++ rxGrp [.ch isD] ++ rxLit py!"," ++ rxGrp [.ch isD] ++ [.eol]
def cendRegex : List Rx :=
  rxLit py!"^CEND:" ++ rxGrp [.ch isD] ++ rxLit py!"," ++ rxGrp [.ch isD] ++ rxLit py!"," ++ [rxStar isD] ++ rxGrp [.ch isD] ++
    rxLit py!"," ++ [rxStar isD] ++ rxGrp [.ch isD] ++ [.eol]
def wind5Regex : List Rx := rxLit py!"+WIND: 5," ++ rxGrp [.ch isD] ++ [.eol]
def wind6Regex : List Rx := rxLit py!"+WIND: 6," ++ rxGrp [.ch isD] ++ [.eol]
def okRegex : List Rx := rxLit py!"OK" ++ [.eol]
def connectRegex : List Rx := rxLit py!"CONNECT" ++ [.eol]
def hangupRegex : List Rx := rxLit py!"HANGUP:" ++ [rxStar isS] ++ rxGrp [rxPlus isD] ++ [.eol]

/-- Handlers called with a regex match. -/
inductive CallHandler
  | initiated | answered | ended | rejected
  deriving DecidableEq, Repr

def callTable : CallTable → List (List Rx × CallHandler)
  | .none => []
  | .huawei => [(origRegex, .initiated), (connRegex, .answered), (cendRegex, .ended)]
  | .wavecom => [(wind5Regex, .initiated), (okRegex, .answered), (wind6Regex, .ended)]
  | .zte => [(connectRegex, .answered), (hangupRegex, .ended), (okRegex, .rejected)]

def runCallHandler (h : CallHandler) (groups : List PyStr) : M Unit := do
  match h with
  | .initiated =>
    -- nothing is converted when no `dial` waits
    let s ← get
    if s.dialEvent.isSome then
      match groups with
      | g0 :: g1 :: _ => do
        let a ← ofExcept (pyInt g0)
        let b ← ofExcept (pyInt g1)
        handleCallInitiated a b
      | [g0] => do
        let a ← ofExcept (pyInt g0)
        handleCallInitiated a 1
      | [] => raise .indexError
  | .answered =>
    match groups with
    | g0 :: _ :: _ => do
      let a ← ofExcept (pyInt g0)
      handleCallAnswered (some a)
    | _ => handleCallAnswered none
  | .ended =>
    match groups with
    | g0 :: _ => do
      let a ← ofExcept (pyInt g0)
      handleCallEnded (some a) false false
    | [] => handleCallEnded none true false
  | .rejected =>
    match groups with
    | g0 :: _ => do
      let a ← ofExcept (pyInt g0)
      handleCallEnded (some a) false true
    | [] => handleCallEnded none true true

/-- What a notification line is taken for. -/
inductive Dispatch
  | ring | cmti | cusd | cdsi | call (h : CallHandler) (groups : List PyStr)
  deriving DecidableEq, Repr

/-- The tests of `__threadedHandleModemNotification` on one line, modem.py:863-886. -/
def recognise (table : List (List Rx × CallHandler)) (line : PyStr) : Option Dispatch :=
  if pyContains py!"RING" line then some .ring
  else if py!"+CMTI".isPrefixOf line then some .cmti
  else if py!"+CUSD".isPrefixOf line then some .cusd
  else if py!"+CDSI".isPrefixOf line then some .cdsi
  else table.findSome? fun (rx, h) => (rxGroups rx line).map fun g => .call h g

/-- The loop over the lines. -/
def dispatchLoop (lines : List PyStr) : List PyStr → M Unit
  | [] => pure ()
  | line :: rest => do
    let s ← get
    match recognise (callTable s.callStatusUpdates) line with
    | some .ring => handleIncomingCall lines
    | some .cmti => handleSmsReceived line
    | some .cusd => handleUssd lines
    | some .cdsi => handleSmsStatusReport line
    | some (.call h g) => runCallHandler h g
    | none => dispatchLoop lines rest

/-- `__threadedHandleModemNotification`, modem.py:857-888. -/
def handleNotification (lines : List PyStr) : M Unit := dispatchLoop lines lines

/-! ### Polling, modem.py:1159-1204 -/

/-- `^\+CLCC:\s+(\d+),(\d),(\d),(\d),([^,]),"([^,]*)",(\d+)$`, modem.py:286. -/
def clccRegex : List Rx :=
  rxLit py!"+CLCC:" ++ [rxPlus isS] ++ rxGrp [rxPlus isD] ++ rxLit py!"," ++ rxGrp [.ch isD] ++ rxLit py!"," ++ rxGrp [.ch isD] ++
    rxLit py!"," ++ rxGrp [.ch isD] ++ rxLit py!"," ++ rxGrp [.ch (notC 44)] ++ rxLit py!",\"" ++ rxGrp [rxStar (notC 44)] ++
    rxLit py!"\"," ++ rxGrp [rxPlus isD] ++ [.eol]

/-- The query of one round, modem.py:1174-1187: the first four groups. -/
def clccQuery : M (Option (Int × Int × Int × Int)) :=
  except (do
    let line ← firstLine (← write py!"AT+CLCC")
    match rxGroups clccRegex line with
    | some (a :: b :: c :: d :: _) => do
      let a ← ofExcept (pyInt a)
      let b ← ofExcept (pyInt b)
      let c ← ofExcept (pyInt c)
      let d ← ofExcept (pyInt d)
      pure (some (a, b, c, d))
    | _ => pure none) (fun e => match e with | .timeout _ => true | _ => false) (fun _ => pure none)

/-- What follows the query, modem.py:1178-1202. -/
def pollStep (p : Poller) : Option (Int × Int × Int × Int) → M Poller
  | some (cid, direction, stat, type) =>
    if direction = 0 then
      if p.expectedState = 0 then
        if stat = 2 ∨ stat = 3 then do
          handleCallInitiated cid type
          pure { p with callId := some cid, expectedState := 1 }
        else pure p
      else if p.expectedState = 1 then
        if stat = 0 then do
          handleCallAnswered (some cid)
          pure { p with callId := some cid, expectedState := 2 }
        else pure p
      else pure p
    else pure p
  | none =>
    if p.expectedState = 2 then do
      handleCallEnded p.callId false false
      pure { p with done := true }
    else if p.expectedState = 1 then do
      handleCallEnded p.callId false true
      pure { p with done := true }
    else pure p

/-- One round of `_pollCallStatus` (the loop condition and the body); an exception ends the thread. -/
def pollRound (p : Poller) : M Poller := do
  let s ← get
  if s.alive ∧ ¬ p.done ∧ 0 < p.timeLeft then do
    let seen ← clccQuery
    pollStep (if p.expectedState = 0 then { p with timeLeft := p.timeLeft - 1 } else p) seen
  else pure { p with done := true }

/-- What happens by itself: a notification, or a round of a polling thread. -/
inductive Event
  | notify (lines : List PyStr)
  | poll (k : Nat)
  deriving DecidableEq, Repr

/-- An exception ends the thread it happens in, and no other. -/
def Event.run : Event → M Unit
  | .notify lines => fun env s => (.ok (), (handleNotification lines env s).2)
  | .poll k => fun env s =>
    match s.pollers[k]? with
    | none => (.ok (), s)
    | some p =>
      match pollRound p env s with
      | (.ok p', s) => (.ok (), { s with pollers := s.pollers.set k p' })
      | (.error _, s) => (.ok (), { s with pollers := s.pollers.set k { p with done := true } })

/-- `event.wait(timeout)`: events happen until the awaited one is set, or until the time is over. -/
def awaitEvent (isSet : St → Bool) : List Event → M Bool
  | [] => do
    let s ← get
    pure (isSet s)
  | e :: es => do
    let s ← get
    if isSet s then pure true
    else do
      e.run
      awaitEvent isSet es

/-! ### Methods that wait -/

/-- `sendSms` with `waitForDeliveryReport`, modem.py:658-666; `early` happens before the wait. -/
def sendSmsWait [PyUnicode] (destination text : PyStr) (sendFlash : Bool) (early during : List Event) : M Nat := do
  let i ← sendSms destination text sendFlash
  let _ ← awaitEvent (fun _ => false) early
  modify fun s => { s with smsStatusReportEvent := some false }
  let ok ← awaitEvent (fun s => s.smsStatusReportEvent = some true) during
  modify fun s => { s with smsStatusReportEvent := none }
  if ok then pure i else raise (.timeout none)

def cusdCmd (s : PyStr) : PyStr := py!"AT+CUSD=1,\"" ++ s ++ py!"\",15"

/-- `sendUssd`, modem.py:668-700. -/
def sendUssd (ussdString : PyStr) (during : List Event) : M (Option Ussd) := do
  modify fun s => { s with ussdSessionEvent := some false }
  let cusdResponse ← except (write (cusdCmd ussdString)) (fun _ => true) (fun e => do
    modify fun s => { s with ussdSessionEvent := none }
    raise e)
  if cusdResponse.length > 1 ∧ lineStartingWith py!"+CUSD" cusdResponse ≠ none then do
    modify fun s => { s with ussdSessionEvent := none }
    let r ← ofExcept (parseCusdResponse cusdResponse)
    pure (some r)
  else do
    let ok ← awaitEvent (fun s => s.ussdSessionEvent = some true) during
    modify fun s => { s with ussdSessionEvent := none }
    if ok then do
      let s ← get
      pure s.ussdResponse
    else raise (.timeout none)

/-- `Ussd.reply`, modem.py:1336-1347. -/
def Ussd.reply (u : Ussd) (message : PyStr) (during : List Event) : M (Option Ussd) :=
  if u.sessionActive then sendUssd message during else raise .invalidState

/-- `Ussd.cancel`, modem.py:1348-1354. -/
def Ussd.cancel (u : Ussd) : M Unit := do
  if u.sessionActive then let _ ← write py!"AT+CUSD=2"

def atdCmd (number : PyStr) : PyStr := py!"ATD" ++ number ++ py!";"

/-- `write('ATD…', waitForResponse=self._waitForAtdResponse)`. -/
def writeAtd (number : PyStr) : M Unit := do
  let s ← get
  if s.waitForAtdResponse then
    let _ ← write (atdCmd number)
  else writeNoWait (atdCmd number)

/-- `dial`, modem.py:701-742; `timeout` in half seconds. -/
def dial (number : PyStr) (timeout : Nat) (hasCallback : Bool) (during : List Event) : M Nat := do
  let s ← get
  if s.waitForCallInitUpdate then do
    modify fun s => { s with dialEvent := some false }
    except (writeAtd number) (fun _ => true) (fun e => do
      modify fun s => { s with dialEvent := none }
      raise e)
    if s.mustPollCallStatus then
      modify fun s => { s with pollers := s.pollers ++ [⟨0, none, if timeout = 0 then 1999998 else timeout, false⟩] }
    let ok ← awaitEvent (fun s => s.dialEvent = some true) during
    modify fun s => { s with dialEvent := none }
    if ok then do
      let s ← get
      match s.dialResponse with
      | none => raise .typeError
      | some (callId, callType) =>
        registerCall { incoming := false, id := callId, type := some callType, number := some number, callback := hasCallback }
    else raise (.timeout none)
  else do
    writeAtd number
    registerNext { incoming := false, id := 0, type := some 0, number := some number, callback := hasCallback }

/-- `self.ringing = False` of an incoming call, modem.py:1320. -/
def stopRinging (i : Nat) (c : CallObj) : M Unit :=
  if c.incoming then modify fun s => { s with calls := s.calls.modify i fun c => { c with ringing := false } } else pure ()

/-- modem.py:1278-1281. -/
def hangupActive (i : Nat) (c : CallObj) : M Unit :=
  if c.active then do
    let _ ← write py!"ATH"
    setAnswered i false
    modify fun s => { s with calls := s.calls.modify i fun c => { c with active := false } }
  else pure ()

/-- `Call.hangup` and `IncomingCall.hangup`, modem.py:1272-1283, 1318-1321. -/
def hangup (i : Nat) : M Unit := do
  let s ← get
  match s.calls[i]? with
  | none => pure ()
  | some c => do
    stopRinging i c
    hangupActive i c
    modify fun s => { s with activeCalls := dictDel s.activeCalls c.id }

/-- `IncomingCall.answer`, modem.py:1308-1316. -/
def answer (i : Nat) : M Unit := do
  let s ← get
  match s.calls[i]? with
  | none => pure ()
  | some c =>
    if c.incoming ∧ c.ringing then do
      let _ ← write py!"ATA"
      modify fun s => { s with calls := s.calls.modify i fun c => { c with ringing := false } }
      setAnswered i true

/-- `DTMF_COMMAND_BASE.format(cid=self.id)`. -/
def dtmfBase (s : St) (c : CallObj) : PyStr :=
  if s.dtmfHuawei then py!"^DTMF=" ++ intStr c.id ++ py!"," else py!"+VTS="

/-- The command of `sendDtmfTone`, modem.py:1252-1256; a brace after the first tone makes `format`
raise a `ValueError`. -/
def dtmfCmd (base : PyStr) : PyStr → Except PyErr PyStr
  | [] => .ok (py!"AT" ++ base)
  | [t] => .ok (py!"AT" ++ base ++ [t])
  | t :: ts =>
    if ts.any (fun c => c = 123 ∨ c = 125) then .error .valueError
    else .ok (py!"AT" ++ base ++ [t] ++ py!";" ++ base ++ pyJoin (py!";" ++ base) (ts.map fun c => [c]))

/-- `except CmeError as e`. -/
def isCmeError : PyErr → Bool
  | .command .cme _ => true
  | .command .pinRequired _ => true
  | .command .incorrectPin _ => true
  | .command .pukRequired _ => true
  | _ => false

/-- The handler of `CmeError`, modem.py:1259-1267. -/
def dtmfError : PyErr → PyErr
  | .command _ (some 30) => .interrupted 30
  | .command _ (some 3) => .interrupted 3
  | e => e

/-- `sendDtmfTone`, modem.py:1240-1271. -/
def sendDtmfTone (i : Nat) (tones : PyStr) : M Unit := do
  let s ← get
  match s.calls[i]? with
  | none => pure ()
  | some c =>
    if c.answered then do
      let cmd ← ofExcept (dtmfCmd (dtmfBase s c) tones)
      except (do let _ ← write cmd) isCmeError (fun e => raise (dtmfError e))
    else raise .invalidState

/-! ### Histories -/

/-- What the user can do with a connected modem, and what happens by itself. -/
inductive Op
  | event (e : Event)
  | setTextMode (v : Bool)
  | setSmsc (n : Option PyStr)
  | getSmsc
  | signalStrength | manufacturer | model | revision | imei | imsi | networkName | supportedCommands
  | waitForNetworkCoverage (rounds : Nat)
  | read (index : PyStr) (memory : Option PyStr)
  | delete (index : PyStr) (memory : Option PyStr)
  | deleteMultiple (delFlag : Int) (memory : Option PyStr)
  | list (status : Int) (memory : Option PyStr) (delete : Bool)
  | process (unreadOnly : Bool)
  | send (destination text : PyStr) (flash : Bool)
  | sendWait (destination text : PyStr) (flash : Bool) (early during : List Event)
  | ussd (s : PyStr) (during : List Event)
  | ussdReply (u : Ussd) (s : PyStr) (during : List Event)
  | ussdCancel (u : Ussd)
  | dial (number : PyStr) (timeout : Nat) (hasCallback : Bool) (during : List Event)
  | answer (call : Nat)
  | hangup (call : Nat)
  | dtmf (call : Nat) (tones : PyStr)

/-- The result is not used. -/
def discard {α : Type} (m : M α) : M Unit := do let _ ← m

def Op.run [PyUnicode] : Op → M Unit
  | .event e => e.run
  | .setTextMode v => setSmsTextMode v
  | .setSmsc n => Gsm.setSmsc n
  | .getSmsc => discard Gsm.getSmsc
  | .signalStrength => discard Gsm.signalStrength
  | .manufacturer => discard Gsm.manufacturer
  | .model => discard Gsm.model
  | .revision => discard Gsm.revision
  | .imei => discard Gsm.imei
  | .imsi => discard Gsm.imsi
  | .networkName => discard Gsm.networkName
  | .supportedCommands => discard Gsm.supportedCommands
  | .waitForNetworkCoverage r => discard (Gsm.waitForNetworkCoverage r)
  | .read i m => discard (readStoredSms i m)
  | .delete i m => deleteStoredSms i m
  | .deleteMultiple f m => deleteMultipleStoredSms f m
  | .list st m d => discard (listStoredSms st m d)
  | .process u => processStoredSms u
  | .send d t f => discard (sendSms d t f)
  | .sendWait d t f e du => discard (sendSmsWait d t f e du)
  | .ussd s du => discard (sendUssd s du)
  | .ussdReply u s du => discard (u.reply s du)
  | .ussdCancel u => u.cancel
  | .dial n t cb du => discard (Gsm.dial n t cb du)
  | .answer c => Gsm.answer c
  | .hangup c => Gsm.hangup c
  | .dtmf c t => sendDtmfTone c t

/-- A history of operations; the caller survives exceptions. -/
def runOps [PyUnicode] (env : Env) : List Op → St → St
  | [], s => s
  | op :: ops, s => runOps env ops (op.run env s).2

end Gsm
