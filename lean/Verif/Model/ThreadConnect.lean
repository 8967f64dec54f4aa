import Verif.Model.ThreadCalls
/-! # Connecting, in steps

The thread that reads what the modem sends runs from the beginning of `connect` (serial_comms.py:44-51), and every
notification is handled in a thread of its own, so notifications can be handled while `connect` is still at work.

Simplification: the attribute `_smscNumber`, which only `connect` and its own setter assign, is looked at once in
modem.py:295-297 and once at the end of the property `smsc`. -/
namespace Gsm
namespace Prog

/-- `lines[0]`. -/
def firstLine (ls : List PyStr) : Prog PyStr := ofExcept (match ls with | [] => .error .indexError | l :: _ => .ok l)

/-- `manufacturer`, modem.py:464-467. -/
def manufacturer : Prog PyStr := do firstLine (← write py!"AT+CGMI")

/-- `supportedCommands`, modem.py:499-517. -/
def supportedCommands : Prog (Option (List PyStr)) :=
  except (do
    let response ← write py!"AT+CLAC"
    if response.length = 2 then
      let commands ← firstLine response
      let commands := if py!"+CLAC".isPrefixOf commands then commands.drop 6 else commands
      pure (some (pySplit py!"," commands))
    else if response.length > 2 then pure (some (response.dropLast.map pyStrip))
    else pure none) isCommandError (fun _ => pure none)

/-- Storing the number that the modem told, modem.py:562-565. -/
def storeSmsc : Option (List PyStr) → Prog Unit
  | none => pure ()
  | some ls =>
    match lineMatching (rxGroups cscaRegex) ls with
    | some [number, _] => change fun s => { s with smscNumber := some number }
    | _ => pure ()

/-- `smsc`, modem.py:554-566. -/
def getSmsc : Prog (Option PyStr) := do
  let s ← look
  match s.smscNumber with
  | some n => pure (some n)
  | none =>
    let readSmsc ← except (do let ls ← write py!"AT+CSCA?"; pure (some ls))
      (fun e => match e with | .command .smscUnknown _ => true | _ => false) (fun _ => pure none)
    storeSmsc readSmsc
    let s ← look
    pure s.smscNumber

/-- Setter of `smsc`, modem.py:567-573. -/
def setSmsc (smscNumber : Option PyStr) : Prog Unit := do
  let s ← look
  if smscNumber ≠ s.smscNumber then
    let s ← look
    if s.alive then
      let _ ← write (cscaCmd (optStr smscNumber))
      change fun s => { s with smscNumber := smscNumber }
    else change fun s => { s with smscNumber := smscNumber }
  else pure ()

/-- Asking for the state of the PIN, modem.py:368-377. -/
def askPin : Prog (Option PyStr) :=
  except (do let ls ← write py!"AT+CPIN?"; pure (lineStartingWith py!"+CPIN" ls))
    (fun e => match e with | .timeout _ => true | _ => false)
    (fun e => match e with
      | .timeout (some data) =>
        match lineStartingWith py!"+CPIN" data with
        | some l => pure (some l)
        | none => raise e
      | _ => raise e)

/-- `_unlockSim`, modem.py:366-385. -/
def unlockSim (pin : Option PyStr) : Prog Unit := do
  let cpinResponse ← askPin
  if cpinResponse ≠ some py!"+CPIN: READY" then
    match pin with
    | some pin => do
      let _ ← write (py!"AT+CPIN=\"" ++ pin ++ py!"\"")
      pure ()
    | none => raise (.command .pinRequired (some 11))
  else pure ()

/-- modem.py:186-192. -/
def enableRadio : Prog Unit :=
  except (do
    let ls ← write py!"AT+CFUN?"
    let cfun ← ofExcept (intFrom7 (lineStartingWith py!"+CFUN:" ls))
    if cfun ≠ 1 then
      let _ ← write py!"AT+CFUN=1"
      pure ()
    else pure ()) isCommandError (fun _ => pure ())

/-- modem.py:185-198. -/
def connectRest (pin : Option PyStr) (pinCheckComplete : Bool) : Prog Unit := do
  let _ ← write py!"ATE0"
  enableRadio
  let _ ← write py!"AT+CMEE=1"
  if !pinCheckComplete then unlockSim pin else pure ()

/-- modem.py:175-198. -/
def connectBasics (pin : Option PyStr) : Prog Unit := do
  match ← tryCommand (write py!"ATZ") with
  | none => do
    let _ ← write py!"AT+CMEE=1" false
    unlockSim pin
    let _ ← write py!"ATZ"
    connectRest pin true
  | some _ => connectRest pin false

/-- A command if the list of commands has another one. -/
def writeIf (b : Bool) (data : PyStr) (parseError : Bool) : Prog Unit :=
  if b then do
    let _ ← write data parseError
    pure ()
  else pure ()

/-- modem.py:205-224. -/
def identifyCommands (cs : List PyStr) : Prog (Nat × Bool) := do
  writeIf (cs.contains py!"^CVOICE") py!"AT^CVOICE=0" false
  if cs.contains py!"+VTS" then change fun s => { s with dtmfSupport := true } else pure ()
  writeIf (cs.contains py!"^USSDMODE") py!"AT^USSDMODE=0" false
  pure (if cs.contains py!"+WIND" then (2, true)
    else if cs.contains py!"+ZPAS" then (3, false)
    else if !cs.contains py!"+VTS" && cs.contains py!"^DTMF" then (1, false)
    else (0, false))

/-- modem.py:228-238. -/
def identifyWind (hint : Nat) : Prog Nat := do
  match ← tryCommand (do let ls ← write py!"AT+WIND?"; pure (lineStartingWith py!"+WIND:" ls)) with
  | none => pure hint
  | some wind => do
    let n ← ofExcept (intFrom7 wind)
    writeIf (n ≠ 50) py!"AT+WIND=50" true
    pure 2

/-- modem.py:240-249. -/
def identifyOther (hint : Nat) : Prog Nat := do
  if hint = 0 then
    let m ← manufacturer
    if asciiLower m = py!"huawei" then pure 1
    else
      match ← tryCommand (write py!"AT+ZPAS?") with
      | none => pure 0
      | some _ => pure 3
  else pure hint

/-- What the list of commands says. -/
def identifyBy : Option (List PyStr) → Prog (Nat × Bool)
  | some cs => identifyCommands cs
  | none => pure (0, true)

/-- modem.py:200-249. -/
def connectIdentify : Prog (Nat × Option (List PyStr)) := do
  let commands ← supportedCommands
  let r ← identifyBy commands
  let hint ← if r.2 then identifyWind r.1 else pure r.1
  let hint ← identifyOther hint
  pure (hint, commands)

/-- modem.py:264-265, 277-278. -/
def assumeDtmf (commands : Option (List PyStr)) : Prog Unit := change fun s => { s with dtmfSupport := s.dtmfSupport || commands.isNone }

/-- modem.py:250-287, one attribute after the other. -/
def connectCallTable (hint : Nat) (commands : Option (List PyStr)) : Prog Unit :=
  if hint = 1 then do
    change fun s => { s with callStatusUpdates := .huawei }
    change fun s => { s with mustPollCallStatus := false }
    change fun s => { s with dtmfHuawei := true }
    change fun s => { s with dtmfSupport := true }
  else if hint = 2 then do
    change fun s => { s with callStatusUpdates := .wavecom }
    change fun s => { s with waitForAtdResponse := false }
    change fun s => { s with mustPollCallStatus := false }
    assumeDtmf commands
  else if hint = 3 then do
    change fun s => { s with callStatusUpdates := .zte }
    change fun s => { s with waitForAtdResponse := false }
    change fun s => { s with mustPollCallStatus := false }
    change fun s => { s with waitForCallInitUpdate := false }
    assumeDtmf commands
  else do
    change fun s => { s with mustPollCallStatus := true }
    change fun s => { s with waitForAtdResponse := true }

/-- modem.py:331-336: the memory for reading and deleting, before it is selected. -/
def preferMemory : Option PyStr → Prog Unit
  | some m => change fun s => { s with smsMemReadDelete := some m }
  | none => pure ()

/-- What the modem answers to `AT+CPMS=?`, modem.py:308-337. -/
def chooseMemory : Option (Option PyStr) → Prog Unit
  | none => change fun s => { s with smsReadSupported := false }
  | some none => raise .attributeError
  | some (some cpmsLine) =>
    match afterSpace cpmsLine with
    | none => raise .indexError
    | some rest =>
      if (pySplit py!"),(" rest).any (·.isEmpty) then change fun s => { s with smsReadSupported := false }
      else do
        preferMemory ((pySplit py!"),(" rest).head?.bind preferredMemory)
        let _ ← write (py!"AT+CPMS=" ++ pyJoin py!"," ((pySplit py!"),(" rest).map fun i => (preferredMemory i).getD []))
        pure ()

/-- modem.py:308-337. -/
def connectMemory : Prog Unit := do
  let r ← tryCommand (do let ls ← write py!"AT+CPMS=?"; pure (lineStartingWith py!"+CPMS" ls))
  chooseMemory r

/-- modem.py:295-299: the number is set or asked for. -/
def firstSmsc : Prog (Option PyStr) := do
  let s ← look
  match s.smscNumber with
  | some n => do
    let _ ← write (cscaCmd n)
    pure (some n)
  | none => getSmsc

/-- modem.py:300-306. -/
def keepSmsc : Option PyStr → Prog Unit
  | some n => do
    change fun s => { s with smscNumber := none }
    let _ ← write py!"AT+CSMP=49,167,0,0" false
    let now ← getSmsc
    if now ≠ some n then setSmsc (some n) else pure ()
  | none => do
    let _ ← write py!"AT+CSMP=49,167,0,0" false
    pure ()

/-- modem.py:289-306. -/
def connectSms : Prog Unit := do
  let _ ← write py!"AT+COPS=3,0" false
  let s ← look
  let _ ← write (py!"AT+CMGF=" ++ (if s.smsTextMode then py!"1" else py!"0"))
  let currentSmscNumber ← firstSmsc
  keepSmsc currentSmscNumber

/-- modem.py:339-345. -/
def notifyMessages : Prog Unit := do
  let s ← look
  if s.smsReadSupported then
    match ← tryCommand (write py!"AT+CNMI=2,1,0,2") with
    | none => change fun s => { s with smsReadSupported := false }
    | some _ => pure ()
  else pure ()

/-- modem.py:347-360. -/
def notifyCalls : Prog Unit := do
  match ← tryCommand (write py!"AT+CLIP=1") with
  | none => change fun s => { s with callingLineIdentification := false }
  | some _ => do
    change fun s => { s with callingLineIdentification := true }
    match ← tryCommand (write py!"AT+CRC=1") with
    | none => change fun s => { s with extendedIncomingCallIndication := false }
    | some _ => change fun s => { s with extendedIncomingCallIndication := true }

/-- modem.py:339-364. -/
def connectNotifications : Prog Unit := do
  notifyMessages
  notifyCalls
  let _ ← write py!"AT+CVHU=0" false
  pure ()

/-- `connect`, modem.py:164-364 (opening the port succeeds). -/
def connect (pin : Option PyStr) : Prog Unit := do
  change fun s => { s with alive := true }
  connectBasics pin
  let r ← connectIdentify
  connectCallTable r.1 r.2
  connectSms
  connectMemory
  connectNotifications

end Prog

/-- What a thread can be at work with: a task, or connecting. -/
inductive Activity
  | task (t : Task)
  | connect (pin : Option PyStr)

def Activity.prog [PyUnicode] : Activity → Prog Unit
  | task t => t.prog
  | connect pin => Prog.connect pin

/-- The activities, each in a thread of its own. -/
def performActivities [PyUnicode] (env : Env) (schedule : List Nat) (activities : List Activity) (s : St) : List (Prog Unit) × St :=
  runThreads env schedule (activities.map Activity.prog, s)

end Gsm
