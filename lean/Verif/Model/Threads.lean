import Verif.Model.ModemSms
/-! # Methods that run in several threads

Each notification of the modem is handled in a thread of its own (modem.py:847-857), besides the threads of
the program that uses the library. A method is here what remains to be done of it, in atomic steps: an
exchange with the modem (`SerialComms.write` holds a lock from the command to the answer, serial_comms.py:98-130),
or looking at and changing attributes of the modem object. Between two steps the other threads can do theirs.

Simplifications: an attribute is read or assigned in one step; so is an entry of a dictionary; entries of
`sentSms` do not vanish. -/
namespace Gsm

inductive Prog (α : Type)
  | done (r : Except PyErr α)
  | io (text : PyStr) (k : Reply → Prog α)
  /-- Changes the state and goes on, both depending on the state. -/
  | act (f : Limits → St → St) (k : Limits → St → Prog α)

namespace Prog

def bind {α β : Type} : Prog α → (α → Prog β) → Prog β
  | done (.ok a), f => f a
  | done (.error e), _ => done (.error e)
  | io t k, f => io t fun r => (k r).bind f
  | act g k, f => act g fun env s => (k env s).bind f

instance : Monad Prog where
  pure a := done (.ok a)
  bind := bind

def raise {α : Type} (e : PyErr) : Prog α := done (.error e)
def ofExcept {α : Type} (r : Except PyErr α) : Prog α := done r
def look : Prog St := act (fun _ s => s) fun _ s => pure s
def change (f : St → St) : Prog Unit := act (fun _ s => f s) fun _ _ => pure ()

/-- One step. -/
def step {α : Type} (env : Env) : Prog α → St → Prog α × St
  | done r, s => (done r, s)
  | io t k, s => (k (env.reply (t :: s.log)), { s with log := t :: s.log })
  | act f k, s => (k env s, f env s)

/-- All steps, without other threads. -/
def run {α : Type} (env : Env) : Prog α → St → Except PyErr α × St
  | done r, s => (r, s)
  | io t k, s => run env (k (env.reply (t :: s.log))) { s with log := t :: s.log }
  | act f k, s => run env (k env s) (f env s)

/-! ### The methods -/

/-- `GsmModem.write`, modem.py:387-446, with a remaining recursion depth. -/
def writeN : Nat → PyStr → Bool → PyStr → Prog (List PyStr)
  | 0, _, _, _ => raise .recursionError
  | depth + 1, data, parseError, writeTerm => io (data ++ writeTerm) fun r =>
    match r with
    | .timeout d => raise (.timeout d)
    | .lines ls =>
      match ls.getLast? with
      | none => raise .indexError
      | some cmdStatusLine =>
        if parseError then
          match classify cmdStatusLine with
          | .fine => pure ls
          | .failed e => raise e
          | .busy code => do
            change fun s => { s with writeWait := s.writeWait + 2 }
            let r ← writeN depth data parseError writeTerm
            change fun s => { s with writeWait := if code = 515 then 1 else 0 }
            pure r
        else pure ls

def write (data : PyStr) (parseError : Bool := true) (writeTerm : PyStr := [13]) : Prog (List PyStr) :=
  act (fun _ s => s) fun env _ => writeN env.depth data parseError writeTerm

/-- `_setSmsMemory` without another memory to write to, modem.py:541-543. -/
def setSmsMemory (readDelete : Option PyStr) : Prog Unit := do
  match readDelete with
  | some mem =>
    let s ← look
    if some mem ≠ s.smsMemReadDelete then
      let _ ← write (cpmsCmd mem)
      change fun s => { s with smsMemReadDelete := some mem }
  | none => pure ()

/-- `readStoredSms`, modem.py:1021-1073. -/
def readStoredSms (index : PyStr) (memory : Option PyStr) : Prog Msg := do
  setSmsMemory memory
  let msgData ← write (cmgrCmd index)
  let s ← look
  ofExcept (if s.smsTextMode then parseCmgrText msgData else parseCmgrPdu msgData)

/-- `deleteStoredSms`, modem.py:1075-1086. -/
def deleteStoredSms (index : PyStr) (memory : Option PyStr := none) : Prog Unit := do
  setSmsMemory memory
  let _ ← write (cmgdCmd index)

/-- `deleteMultipleStoredSms`, modem.py:1088-1112. -/
def deleteMultipleStoredSms (delFlag : Int := 4) (memory : Option PyStr := none) : Prog Unit :=
  if 0 < delFlag ∧ delFlag ≤ 4 then do
    setSmsMemory memory
    let _ ← write (py!"AT+CMGD=1," ++ intStr delFlag)
  else raise .valueError

def deleteAll : List Int → Prog Unit
  | [] => pure ()
  | i :: is => do
    deleteStoredSms (intStr i)
    deleteAll is

/-- modem.py:838-844. -/
def deleteListed (status : Int) (delete : Bool) (delMessages : List Int) : Prog Unit :=
  if delete then
    if status = 4 then deleteMultipleStoredSms
    else act (fun _ s => s) fun env _ => deleteAll (env.order delMessages)
  else pure ()

/-- `listStoredSms`, modem.py:764-845. -/
def listStoredSms (status : Int := 4) (memory : Option PyStr := none) (delete : Bool := false) : Prog (List Msg) := do
  setSmsMemory memory
  let s ← look
  let cmd ← ofExcept (listCommand s.smsTextMode status)
  let result ← write cmd
  let listing ← ofExcept (parseListing s.smsTextMode result)
  deleteListed status delete listing.delMessages
  pure listing.messages

def callback (c : Callback) : Prog Unit := change fun s => { s with callbacks := c :: s.callbacks }

/-- `_handleSmsReceived`, modem.py:991-1000. -/
def handleSmsReceived (notificationLine : PyStr) : Prog Unit := do
  match rxGroups cmtiRegex notificationLine with
  | some [msgMemory, msgIndex] =>
    let sms ← readStoredSms msgIndex (some msgMemory)
    deleteStoredSms msgIndex
    callback (.smsReceived sms)
  | _ => pure ()

/-- modem.py:1012-1013: whether the message is known is found out in the step that stores the report. -/
def updateSent (report : Msg) (reference deliveryStatus : Int) : Prog Unit := change fun s =>
  { s with
    sent := (match dictGet s.sentSms reference with
      | some i => s.sent.modify i fun x => { x with report := some report }
      | none => s.sent)
    smsTrace := .report reference deliveryStatus :: s.smsTrace }

/-- `_handleSmsStatusReport`, modem.py:1002-1019. -/
def handleSmsStatusReport (notificationLine : PyStr) : Prog Unit := do
  match rxGroups cdsiRegex notificationLine with
  | some [msgMemory, msgIndex] =>
    let report ← readStoredSms msgIndex (some msgMemory)
    deleteStoredSms msgIndex
    match report with
    | .received .. => raise .attributeError
    | .report _ reference _ _ _ deliveryStatus =>
      updateSent report reference deliveryStatus
      act (fun _ s => if s.smsStatusReportEvent.isSome then { s with smsStatusReportEvent := some true } else s) fun _ s =>
        if s.smsStatusReportEvent.isSome then pure () else callback (.statusReport report)
  | _ => pure ()

def sendPdus : List Pdu → Option PyStr → Prog (Option PyStr)
  | [], result => pure result
  | pdu :: pdus, _ => do
    let _ ← write (py!"AT+CMGS=" ++ decStr pdu.tpduLength)
    let ls ← write (pduHex pdu.data) true [26]
    sendPdus pdus (lineStartingWith py!"+CMGS:" ls)

/-- modem.py:652-657: three assignments; the result is the index of the new object. -/
def recordSent (destination text : PyStr) (reference : Int) : Prog Nat := do
  change fun s => { s with smsRef := reference + 1 }
  let s ← look
  if s.smsRef > 255 then change fun s => { s with smsRef := 0 }
  act (fun _ s => { s with sent := s.sent ++ [⟨destination, text, reference, none⟩], sentSms := dictSet s.sentSms reference s.sent.length, smsTrace := .sent reference :: s.smsTrace })
    fun _ s => pure s.sent.length

/-- modem.py:641-648. -/
def sendAll [PyUnicode] (destination text : PyStr) (sendFlash : Bool) : Prog (Option PyStr) := do
  let s ← look
  if s.smsTextMode then
    let _ ← write (py!"AT+CMGS=\"" ++ destination ++ py!"\"")
    let ls ← write text true [26]
    pure (lineStartingWith py!"+CMGS:" ls)
  else
    let s ← look
    let pdus ← ofExcept (encodeSmsSubmitPdu destination text s.smsRef (sendFlash := sendFlash))
    sendPdus pdus none

/-- modem.py:649-657. -/
def sendFinish (destination text : PyStr) : Option PyStr → Prog Nat
  | none => raise (.command .command none)
  | some result => do
    let reference ← ofExcept (pyInt (result.drop 7))
    recordSent destination text reference

/-- `sendSms` without waiting, modem.py:641-657, 666. -/
def sendSms [PyUnicode] (destination text : PyStr) (sendFlash : Bool := false) : Prog Nat := do
  let result ← sendAll destination text sendFlash
  sendFinish destination text result

/-- The setter of `smsTextMode`, modem.py:519-530. -/
def setSmsTextMode (textMode : Bool) : Prog Unit := do
  let s ← look
  if textMode ≠ s.smsTextMode then
    let s ← look
    if s.alive then
      let _ ← write (py!"AT+CMGF=" ++ (if textMode then py!"1" else py!"0"))
    change fun s => { s with smsTextMode := textMode }

/-- A question of one command, such as `signalStrength` or `write` called by the program. -/
def ask (command : PyStr) : Prog Unit := do let _ ← write command

end Prog

/-! ### Several threads -/

/-- A method that a thread runs. -/
inductive Method
  | read (index : PyStr) (memory : Option PyStr)
  | delete (index : PyStr) (memory : Option PyStr)
  | deleteMultiple (delFlag : Int) (memory : Option PyStr)
  | list (status : Int) (memory : Option PyStr) (delete : Bool)
  | received (notificationLine : PyStr)
  | statusReport (notificationLine : PyStr)
  | send (destination text : PyStr) (flash : Bool)
  | setTextMode (textMode : Bool)
  | ask (command : PyStr)

/-- Runs the method and forgets its result. -/
def Method.prog [PyUnicode] : Method → Prog Unit
  | read i m => do let _ ← Prog.readStoredSms i m
  | delete i m => Prog.deleteStoredSms i m
  | deleteMultiple f m => Prog.deleteMultipleStoredSms f m
  | list st m d => do let _ ← Prog.listStoredSms st m d
  | received l => Prog.handleSmsReceived l
  | statusReport l => Prog.handleSmsStatusReport l
  | send d t f => do let _ ← Prog.sendSms d t f
  | setTextMode v => Prog.setSmsTextMode v
  | ask c => Prog.ask c

/-- The threads, each with what remains to be done, take steps in the order of the schedule. -/
def runThreads (env : Env) : List Nat → List (Prog Unit) × St → List (Prog Unit) × St
  | [], x => x
  | i :: is, (threads, s) =>
    match threads[i]? with
    | none => runThreads env is (threads, s)
    | some p => runThreads env is (threads.set i (p.step env s).1, (p.step env s).2)

/-- The methods, each in a thread of its own. -/
def concurrently [PyUnicode] (env : Env) (schedule : List Nat) (methods : List Method) (s : St) : List (Prog Unit) × St :=
  runThreads env schedule (methods.map Method.prog, s)

end Gsm
