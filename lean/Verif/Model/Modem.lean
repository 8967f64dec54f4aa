import Verif.Model.PyText
import Verif.Model.Util
import Verif.Model.Pdu
/-! # The modem object: gsmmodem/modem.py

A method of `GsmModem` is a program that writes commands and reads replies. The modem at the other
end is arbitrary: `Env.reply` maps the history of written commands (most recent first, including
the one being answered) to what `SerialComms.write` delivers (properties C27–C31): the response
lines, or a time-out with the lines read so far. Python's recursion limit is a parameter (`depth`),
and so is the iteration order of sets. Simplifications: `time.sleep` is skipped, times are counted in
tenths of a second; the text of a `CommandError` is dropped (its class and code are kept); user
callbacks are recorded, and return normally. -/
namespace Gsm

inductive Reply
  | lines (ls : List PyStr)
  | timeout (data : Option (List PyStr))
  deriving DecidableEq, Repr

/-- What depends on the Python interpreter only. -/
structure Limits where
  depth : Nat
  /-- Iteration order of a set of ints. -/
  order : List Int → List Int
  order_perm : ∀ l, (order l).Perm l

structure Env extends Limits where
  reply : List PyStr → Reply

instance : Coe Env Limits := ⟨Env.toLimits⟩

/-- `ReceivedSms` and `StatusReport` objects, modem.py:49-60, 88-106. -/
inductive Msg
  | received (status : Int) (number : Option PyStr) (time : DateTime) (text : PyStr) (smsc : Option PyStr)
  | report (status : Int) (reference : Int) (number : Option PyStr) (timeSent timeFinalized : DateTime)
      (deliveryStatus : Int)
  deriving DecidableEq, Repr

/-- `SentSms` objects, modem.py:63-85 (identified by their position in `St.sent`). -/
structure Sent where
  number : PyStr
  text : PyStr
  reference : Int
  report : Option Msg
  deriving DecidableEq, Repr

/-- `Call` and `IncomingCall` objects, modem.py:1207-1321 (identified by their position in `St.calls`). -/
structure CallObj where
  incoming : Bool
  id : Int
  type : Option Int
  number : Option PyStr
  ton : Option PyStr := none
  answered : Bool := false
  active : Bool := true
  ringing : Bool := false
  ringCount : Nat := 0
  callback : Bool := false                      -- whether there is a status update callback
  deriving DecidableEq, Repr

/-- `Ussd` objects, modem.py:1323-1334. -/
structure Ussd where
  sessionActive : Bool
  message : Option PyStr
  deriving DecidableEq, Repr

/-- A call of a user callback. -/
inductive Callback
  | incomingCall (call : Nat)
  | smsReceived (m : Msg)
  | statusReport (m : Msg)
  | callStatus (call : Nat)
  deriving DecidableEq, Repr

/-- `_callStatusUpdates`, modem.py:251-287. -/
inductive CallTable
  | none
  | huawei
  | wavecom
  | zte
  deriving DecidableEq, Repr

/-- Record of messages sent and of status reports handled (not an attribute in Python). -/
inductive SmsEvent
  | sent (reference : Int)
  | report (reference deliveryStatus : Int)
  deriving DecidableEq, Repr

/-- A thread that runs `_pollCallStatus`, between two rounds of its loop (time in half seconds). -/
structure Poller where
  expectedState : Nat
  callId : Option Int
  timeLeft : Nat
  done : Bool
  deriving DecidableEq, Repr

/-- Attributes of `GsmModem` (modem.py:133-162), with the objects and threads it created, and records of
the commands written, the callbacks made and the SMS events (most recent first). -/
structure St where
  alive : Bool := true
  callingLineIdentification : Bool := false
  extendedIncomingCallIndication : Bool := false
  activeCalls : List (Int × Nat) := []          -- in insertion order; values are call objects
  sentSms : List (Int × Nat) := []              -- values are SentSms objects
  ussdSessionEvent : Option Bool := none        -- None, or an event and whether it is set
  ussdResponse : Option Ussd := none
  smsStatusReportEvent : Option Bool := none
  dialEvent : Option Bool := none
  dialResponse : Option (Int × Int) := none
  waitForAtdResponse : Bool := true
  waitForCallInitUpdate : Bool := true
  callStatusUpdates : CallTable := .none
  mustPollCallStatus : Bool := false
  writeWait : Nat := 0                          -- in tenths of a second
  smsTextMode : Bool := false
  smscNumber : Option PyStr := none
  smsRef : Int := 0
  smsMemReadDelete : Option PyStr := none
  smsMemWrite : Option PyStr := none
  smsReadSupported : Bool := true
  dtmfSupport : Bool := false                   -- Call.dtmfSupport
  dtmfHuawei : Bool := false                    -- Call.DTMF_COMMAND_BASE is '^DTMF={cid},'
  calls : List CallObj := []
  sent : List Sent := []
  pollers : List Poller := []
  log : List PyStr := []
  callbacks : List Callback := []
  smsTrace : List SmsEvent := []
  deriving DecidableEq, Repr

/-- A program. -/
def M (α : Type) := Env → St → Except PyErr α × St

instance : Monad M where
  pure a := fun _ s => (.ok a, s)
  bind m f := fun env s =>
    match m env s with
    | (.ok a, s) => f a env s
    | (.error e, s) => (.error e, s)

namespace M
def get : M St := fun _ s => (.ok s, s)
def modify (f : St → St) : M Unit := fun _ s => (.ok (), f s)
def raise {α : Type} (e : PyErr) : M α := fun _ _s => (.error e, _s)
def ofExcept {α : Type} : Except PyErr α → M α
  | .ok a => pure a
  | .error e => raise e
/-- `try: m  except <p>: h`. -/
def except {α : Type} (m : M α) (p : PyErr → Bool) (h : PyErr → M α) : M α := fun env s =>
  match m env s with
  | (.ok a, s) => (.ok a, s)
  | (.error e, s) => if p e then h e env s else (.error e, s)
/-- `m` with its `CommandError` or value as a result. -/
def tryCommand {α : Type} (m : M α) : M (Option α) :=
  except (do let a ← m; pure (some a)) (fun e => match e with | .command _ _ => true | _ => false) (fun _ => pure none)
end M
open M

/-- `except CommandError`. -/
def isCommandError : PyErr → Bool
  | .command _ _ => true
  | _ => false

/-- `CmeError(data, n)`, exceptions.py:50-103. -/
def cmeError (n : Nat) : PyErr :=
  if n = 11 then .command .pinRequired (some n)
  else if n = 16 then .command .incorrectPin (some n)
  else if n = 12 then .command .pukRequired (some n)
  else .command .cme (some n)

/-- `CmsError(data, n)`, exceptions.py:106-130. -/
def cmsError (n : Nat) : PyErr :=
  if n = 330 then .command .smscUnknown (some n) else .command .cms (some n)

/-- `^\+(CM[ES]) ERROR: (\d+)$`, modem.py:115. -/
def cmErrorRegex : List Rx :=
  rxLit py!"+" ++ rxGrp (rxLit py!"CM" ++ [.ch (fun c => decide (c = 69 ∨ c = 83))]) ++ rxLit py!" ERROR: " ++
    rxGrp [rxPlus isD] ++ [.eol]

/-- What the last line of a response means to `write`, modem.py:417-446 (with `parseError`). -/
inductive LineClass
  | fine
  | busy (code : Int)
  | failed (e : PyErr)
  deriving DecidableEq, Repr

def classify (line : PyStr) : LineClass :=
  if pyContains py!"ERROR" line then
    match rxGroups cmErrorRegex line with
    | some [errorType, code] =>
      match pyInt code with
      | .error e => .failed e
      | .ok n =>
        if n = 515 ∨ n = 14 then .busy n
        else if errorType = py!"CME" then .failed (cmeError n.toNat)
        else .failed (cmsError n.toNat)
    | _ => .failed (.command .command none)
  else if line = py!"COMMAND NOT SUPPORT" then .failed (.command .command none)
  else .fine

/-- `GsmModem.write` with a remaining recursion depth, modem.py:387-446. -/
def writeN : Nat → PyStr → Bool → PyStr → M (List PyStr)
  | 0, _, _, _ => raise .recursionError
  | depth + 1, data, parseError, writeTerm => fun env s =>
    let s := { s with log := (data ++ writeTerm) :: s.log }
    match env.reply s.log with
    | .timeout d => (.error (.timeout d), s)
    | .lines ls =>
      match ls.getLast? with
      | none => (.error .indexError, s)
      | some cmdStatusLine =>
        if parseError then
          match classify cmdStatusLine with
          | .fine => (.ok ls, s)
          | .failed e => (.error e, s)
          | .busy code =>
            match writeN depth data parseError writeTerm env { s with writeWait := s.writeWait + 2 } with
            | (.ok r, s) => (.ok r, { s with writeWait := if code = 515 then 1 else 0 })
            | (.error e, s) => (.error e, s)
        else (.ok ls, s)

/-- `GsmModem.write` with `waitForResponse`. -/
def write (data : PyStr) (parseError : Bool := true) (writeTerm : PyStr := [13]) : M (List PyStr) :=
  fun env s => writeN env.depth data parseError writeTerm env s

/-- `GsmModem.write` with `waitForResponse=False`. -/
def writeNoWait (data : PyStr) : M Unit := modify fun s => { s with log := (data ++ [13]) :: s.log }

/-- `lines[0]`. -/
def firstLine (ls : List PyStr) : M PyStr := ofExcept (match ls with | [] => .error .indexError | l :: _ => .ok l)

/-! ### Queries, modem.py:448-543, 554-573 -/

/-- `^\+CSQ:\s*(\d+),`, modem.py:117. -/
def csqRegex : List Rx := rxLit py!"+CSQ:" ++ [rxStar isS] ++ rxGrp [rxPlus isD] ++ rxLit py!","

/-- `signalStrength`, modem.py:448-462. -/
def signalStrength : M Int := do
  let line ← firstLine (← write py!"AT+CSQ")
  match rxGroups csqRegex line with
  | some [g] =>
    let ss ← ofExcept (pyInt g)
    pure (if ss ≠ 99 then ss else -1)
  | _ => raise (.command .command none)

/-- `manufacturer`, modem.py:464-467. -/
def manufacturer : M PyStr := do firstLine (← write py!"AT+CGMI")
/-- `model`, modem.py:469-472. -/
def model : M PyStr := do firstLine (← write py!"AT+CGMM")
/-- `revision`, modem.py:474-480. -/
def revision : M (Option PyStr) := tryCommand (do firstLine (← write py!"AT+CGMR"))
/-- `imei`, modem.py:482-485. -/
def imei : M PyStr := do firstLine (← write py!"AT+CGSN")
/-- `imsi`, modem.py:487-490. -/
def imsi : M PyStr := do firstLine (← write py!"AT+CIMI")

/-- `^\+COPS: (\d),(\d),"(.+)",{0,1}\d*$`, modem.py:495 (`.` does not match a newline). -/
def copsRegex : List Rx :=
  rxLit py!"+COPS: " ++ rxGrp [.ch isD] ++ rxLit py!"," ++ rxGrp [.ch isD] ++ rxLit py!",\"" ++
    rxGrp [rxPlus (notC 10)] ++ rxLit py!"\"" ++ [rxOpt 44, rxStar isD, .eol]

/-- `networkName`, modem.py:492-497. -/
def networkName : M (Option PyStr) := do
  let ls ← write py!"AT+COPS?"
  match lineMatching (rxGroups copsRegex) ls with
  | some [_, _, name] => pure (some name)
  | _ => pure none

/-- `supportedCommands`, modem.py:499-517. -/
def supportedCommands : M (Option (List PyStr)) :=
  except (do
    let response ← write py!"AT+CLAC"
    if response.length = 2 then
      let commands ← firstLine response
      let commands := if py!"+CLAC".isPrefixOf commands then commands.drop 6 else commands
      pure (some (pySplit py!"," commands))
    else if response.length > 2 then pure (some (response.dropLast.map pyStrip))
    else pure none) isCommandError (fun _ => pure none)

/-- Setter of `smsTextMode`, modem.py:523-530 (compiling the regular expressions has no other effect
than making them available, see `readStoredSms`). -/
def setSmsTextMode (textMode : Bool) : M Unit := do
  let s ← get
  if textMode ≠ s.smsTextMode then
    if s.alive then
      let _ ← write (py!"AT+CMGF=" ++ (if textMode then py!"1" else py!"0"))
    modify fun s => { s with smsTextMode := textMode }

/-- `'AT+CPMS="{0}"'.format(mem)`, modem.py:542. -/
def cpmsCmd (mem : PyStr) : PyStr := py!"AT+CPMS=\"" ++ mem ++ py!"\""

/-- `_setSmsMemory`, modem.py:532-543. `self.write()` without arguments is a `TypeError`. -/
def setSmsMemory (readDelete : Option PyStr) (wr : Option PyStr := none) : M Unit := do
  let s ← get
  if wr ≠ none ∧ wr ≠ s.smsMemWrite then raise .typeError
  else
    match readDelete with
    | some mem =>
      if some mem ≠ s.smsMemReadDelete then
        let _ ← write (cpmsCmd mem)
        modify fun s => { s with smsMemReadDelete := some mem }
    | none => pure ()

/-- `\+CSCA:\s*"([^,]+)",(\d+)$`, modem.py:563. -/
def cscaRegex : List Rx :=
  rxLit py!"+CSCA:" ++ [rxStar isS] ++ rxLit py!"\"" ++ rxGrp [rxPlus (notC 44)] ++ rxLit py!"\"," ++
    rxGrp [rxPlus isD] ++ [.eol]

/-- `smsc`, modem.py:554-566. -/
def getSmsc : M (Option PyStr) := do
  let s ← get
  match s.smscNumber with
  | some n => pure (some n)
  | none =>
    let readSmsc ← except (do let ls ← write py!"AT+CSCA?"; pure (some ls))
      (fun e => match e with | .command .smscUnknown _ => true | _ => false) (fun _ => pure none)
    match readSmsc with
    | none => pure ()
    | some ls =>
      match lineMatching (rxGroups cscaRegex) ls with
      | some [number, _] => modify fun s => { s with smscNumber := some number }
      | _ => pure ()
    let s ← get
    pure s.smscNumber

def cscaCmd (number : PyStr) : PyStr := py!"AT+CSCA=\"" ++ number ++ py!"\""

/-- `'{0}'.format(None)`. -/
def optStr : Option PyStr → PyStr
  | none => py!"None"
  | some s => s

/-- Setter of `smsc`, modem.py:567-573. -/
def setSmsc (smscNumber : Option PyStr) : M Unit := do
  let s ← get
  if smscNumber ≠ s.smscNumber then
    if s.alive then
      let _ ← write (cscaCmd (optStr smscNumber))
    modify fun s => { s with smscNumber := smscNumber }

/-! ### connect, modem.py:164-385 -/

/-- `_unlockSim`, modem.py:366-385. -/
def unlockSim (pin : Option PyStr) : M Unit := do
  let cpinResponse ← except (do let ls ← write py!"AT+CPIN?"; pure (lineStartingWith py!"+CPIN" ls))
    (fun e => match e with | .timeout _ => true | _ => false)
    (fun e => match e with
      | .timeout (some data) =>
        match lineStartingWith py!"+CPIN" data with
        | some l => pure (some l)
        | none => raise e
      | _ => raise e)
  if cpinResponse ≠ some py!"+CPIN: READY" then
    match pin with
    | some pin => let _ ← write (py!"AT+CPIN=\"" ++ pin ++ py!"\"")
    | none => raise (.command .pinRequired (some 11))

/-- `int(line[7:])` of a line that may be None, modem.py:190, 234. -/
def intFrom7 : Option PyStr → Except PyErr Int
  | none => .error .typeError
  | some l => pyInt (l.drop 7)

/-- modem.py:185-198: echo, functionality, error reports, and the PIN unless this was done already. -/
def connectRest (pin : Option PyStr) (pinCheckComplete : Bool) : M Unit := do
  let _ ← write py!"ATE0"
  except (do
    let ls ← write py!"AT+CFUN?"
    let cfun ← ofExcept (intFrom7 (lineStartingWith py!"+CFUN:" ls))
    if cfun ≠ 1 then
      let _ ← write py!"AT+CFUN=1") isCommandError (fun _ => pure ())
  let _ ← write py!"AT+CMEE=1"
  if !pinCheckComplete then unlockSim pin

/-- modem.py:175-198: reset (which some modems refuse without PIN), and the above. -/
def connectBasics (pin : Option PyStr) : M Unit := do
  match ← tryCommand (write py!"ATZ") with
  | none => do
    let _ ← write py!"AT+CMEE=1" false
    unlockSim pin
    let _ ← write py!"ATZ"
    connectRest pin true
  | some _ => connectRest pin false

/-- modem.py:205-224: what the list of commands says about the table of call updates to use (0: nothing),
and whether to try the Wavecom one. -/
def identifyCommands (cs : List PyStr) : M (Nat × Bool) := do
  if cs.contains py!"^CVOICE" then let _ ← write py!"AT^CVOICE=0" false
  if cs.contains py!"+VTS" then modify fun s => { s with dtmfSupport := true }
  if cs.contains py!"^USSDMODE" then let _ ← write py!"AT^USSDMODE=0" false
  pure (if cs.contains py!"+WIND" then (2, true)
    else if cs.contains py!"+ZPAS" then (3, false)
    else if !cs.contains py!"+VTS" && cs.contains py!"^DTMF" then (1, false)
    else (0, false))

/-- modem.py:228-238. -/
def identifyWind (hint : Nat) : M Nat := do
  match ← tryCommand (do let ls ← write py!"AT+WIND?"; pure (lineStartingWith py!"+WIND:" ls)) with
  | none => pure hint
  | some wind => do
    let n ← ofExcept (intFrom7 wind)
    if n ≠ 50 then let _ ← write py!"AT+WIND=50"
    pure 2

/-- modem.py:240-249. -/
def identifyOther (hint : Nat) : M Nat := do
  if hint = 0 then
    let m ← manufacturer
    if asciiLower m = py!"huawei" then pure 1
    else
      match ← tryCommand (write py!"AT+ZPAS?") with
      | none => pure 0
      | some _ => pure 3
  else pure hint

/-- modem.py:200-249: which table of call updates to use, and the list of commands. -/
def connectIdentify : M (Nat × Option (List PyStr)) := do
  let commands ← supportedCommands
  let (hint, enableWind) ←
    match commands with
    | some cs => identifyCommands cs
    | none => pure (0, true)
  let hint ← if enableWind then identifyWind hint else pure hint
  let hint ← identifyOther hint
  pure (hint, commands)

/-- modem.py:250-287. -/
def connectCallTable (hint : Nat) (commands : Option (List PyStr)) : M Unit :=
  modify fun s =>
    if hint = 1 then
      { s with callStatusUpdates := .huawei, mustPollCallStatus := false, dtmfHuawei := true, dtmfSupport := true }
    else if hint = 2 then
      { s with callStatusUpdates := .wavecom, waitForAtdResponse := false, mustPollCallStatus := false,
               dtmfSupport := s.dtmfSupport || commands.isNone }
    else if hint = 3 then
      { s with callStatusUpdates := .zte, waitForAtdResponse := false, mustPollCallStatus := false,
               waitForCallInitUpdate := false, dtmfSupport := s.dtmfSupport || commands.isNone }
    else { s with mustPollCallStatus := true, waitForAtdResponse := true }

/-- `preferredMemoryTypes`, modem.py:326. -/
def preferredMemory (item : PyStr) : Option PyStr :=
  if pyContains py!"\"ME\"" item then some py!"\"ME\""
  else if pyContains py!"\"SM\"" item then some py!"\"SM\""
  else if pyContains py!"\"SR\"" item then some py!"\"SR\""
  else none

/-- modem.py:308-337. -/
def connectMemory : M Unit := do
  match ← tryCommand (do let ls ← write py!"AT+CPMS=?"; pure (lineStartingWith py!"+CPMS" ls)) with
  | none => modify fun s => { s with smsReadSupported := false }
  | some none => raise .attributeError
  | some (some cpmsLine) =>
    match afterSpace cpmsLine with
    | none => raise .indexError
    | some rest =>
      let cpmsSupport := pySplit py!"),(" rest
      if cpmsSupport.any (·.isEmpty) then modify fun s => { s with smsReadSupported := false }
      else
        match cpmsSupport.head?.bind preferredMemory with
        | some m => modify fun s => { s with smsMemReadDelete := some m }
        | none => pure ()
        let _ ← write (py!"AT+CPMS=" ++ pyJoin py!"," (cpmsSupport.map fun i => (preferredMemory i).getD []))

/-- modem.py:289-306: operator name format, SMS mode and SMSC number. -/
def connectSms : M Unit := do
  let _ ← write py!"AT+COPS=3,0" false
  let s ← get
  let _ ← write (py!"AT+CMGF=" ++ (if s.smsTextMode then py!"1" else py!"0"))
  let s ← get
  let currentSmscNumber ←
    match s.smscNumber with
    | some n => do
      let _ ← write (cscaCmd n)
      pure (some n)
    | none => getSmsc
  if currentSmscNumber ≠ none then modify fun s => { s with smscNumber := none }
  let _ ← write py!"AT+CSMP=49,167,0,0" false
  if currentSmscNumber ≠ none then
    let now ← getSmsc
    if now ≠ currentSmscNumber then setSmsc currentSmscNumber

/-- modem.py:339-364. -/
def connectNotifications : M Unit := do
  let s ← get
  if s.smsReadSupported then
    match ← tryCommand (write py!"AT+CNMI=2,1,0,2") with
    | none => modify fun s => { s with smsReadSupported := false }
    | some _ => pure ()
  match ← tryCommand (write py!"AT+CLIP=1") with
  | none => modify fun s => { s with callingLineIdentification := false }
  | some _ =>
    modify fun s => { s with callingLineIdentification := true }
    match ← tryCommand (write py!"AT+CRC=1") with
    | none => modify fun s => { s with extendedIncomingCallIndication := false }
    | some _ => modify fun s => { s with extendedIncomingCallIndication := true }
  let _ ← write py!"AT+CVHU=0" false

/-- `connect`, modem.py:164-364 (opening the port succeeds). -/
def connect (pin : Option PyStr) : M Unit := do
  modify fun s => { s with alive := true }
  connectBasics pin
  let (hint, commands) ← connectIdentify
  connectCallTable hint commands
  connectSms
  connectMemory
  connectNotifications

/-! ### Network coverage, modem.py:575-625 -/

/-- `^\+CREG:\s*(\d),(\d)$`, modem.py:602. -/
def cregRegex : List Rx :=
  rxLit py!"+CREG:" ++ [rxStar isS] ++ rxGrp [.ch isD] ++ rxLit py!"," ++ rxGrp [.ch isD] ++ [.eol]

/-- The loop of `waitForNetworkCoverage`, when the timer goes off after `rounds` rounds. (Without a
time-out the loop is described by all values of `rounds`.) -/
def coverageLoop : Nat → Bool → M Int
  | 0, _ => raise (.timeout none)
  | rounds + 1, true => do
    let ls ← write py!"AT+CREG?" false
    match lineMatching (rxGroups cregRegex) ls with
    | some [_, g] =>
      let status ← ofExcept (pyInt g)
      if status = 1 ∨ status = 5 then coverageLoop rounds false
      else if status = 3 then raise .invalidState
      else if status = 0 then raise .invalidState
      else coverageLoop rounds true
    | _ => coverageLoop rounds false
  | rounds + 1, false => do
    let ss ← signalStrength
    if ss > 0 then pure ss else coverageLoop rounds false

/-- `waitForNetworkCoverage`, modem.py:575-625. -/
def waitForNetworkCoverage (rounds : Nat) : M Int := coverageLoop rounds true

end Gsm
