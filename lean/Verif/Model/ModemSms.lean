import Verif.Model.Modem
/-! # Stored and sent SMS messages: gsmmodem/modem.py:627-666, 744-845, 991-1112

Simplification: the regular expressions of `readStoredSms` exist (they are compiled by `connect` and
whenever the SMS mode is changed). -/
namespace Gsm
open M

/-- `TEXT_MODE_STATUS_MAP[s]`, modem.py:38-42; `none` is a `KeyError`. -/
def textStatus? (s : PyStr) : Option Int :=
  if s = py!"REC UNREAD" then some 0
  else if s = py!"REC READ" then some 1
  else if s = py!"STO UNSENT" then some 2
  else if s = py!"STO SENT" then some 3
  else if s = py!"ALL" then some 4
  else none

def textStatus (s : PyStr) : Except PyErr Int :=
  match textStatus? s with
  | some n => .ok n
  | none => .error .keyError

/-- The key of a status, modem.py:784-789; `none` is a `ValueError`. -/
def statusText? (n : Int) : Option PyStr :=
  if n = 0 then some py!"REC UNREAD"
  else if n = 1 then some py!"REC READ"
  else if n = 2 then some py!"STO UNSENT"
  else if n = 3 then some py!"STO SENT"
  else if n = 4 then some py!"ALL"
  else none

/-- `^\+CMGR: "([^"]+)","([^"]+)",[^,]*,"([^"]+)"$`, modem.py:549. -/
def cmgrTextRegex : List Rx :=
  rxLit py!"+CMGR: \"" ++ rxGrp [rxPlus (notC 34)] ++ rxLit py!"\",\"" ++ rxGrp [rxPlus (notC 34)] ++ rxLit py!"\"," ++
    [rxStar (notC 44)] ++ rxLit py!",\"" ++ rxGrp [rxPlus (notC 34)] ++ rxLit py!"\"" ++ [.eol]

/-- `^\+CMGR: ([^,]*),\d+,(\d+),"{0,1}([^"]*)"{0,1},\d*,"([^"]+)","([^"]+)",(\d+)$`, modem.py:550. -/
def cmgrReportRegex : List Rx :=
  rxLit py!"+CMGR: " ++ rxGrp [rxStar (notC 44)] ++ rxLit py!"," ++ [rxPlus isD] ++ rxLit py!"," ++ rxGrp [rxPlus isD] ++
    rxLit py!"," ++ [rxOpt 34] ++ rxGrp [rxStar (notC 34)] ++ [rxOpt 34] ++ rxLit py!"," ++ [rxStar isD] ++ rxLit py!",\"" ++
    rxGrp [rxPlus (notC 34)] ++ rxLit py!"\",\"" ++ rxGrp [rxPlus (notC 34)] ++ rxLit py!"\"," ++ rxGrp [rxPlus isD] ++ [.eol]

/-- `^\+CMGR: (\d*),"{0,1}([^"]*)"{0,1},(\d+)$`, modem.py:552. -/
def cmgrPduRegex : List Rx :=
  rxLit py!"+CMGR: " ++ rxGrp [rxStar isD] ++ rxLit py!"," ++ [rxOpt 34] ++ rxGrp [rxStar (notC 34)] ++ [rxOpt 34] ++
    rxLit py!"," ++ rxGrp [rxPlus isD] ++ [.eol]

/-- `msgStatus[1:-1]`. -/
def stripQuotes (s : PyStr) : PyStr := (s.drop 1).take (s.length - 2)

/-- The message object for a decoded PDU, modem.py:829-834, 1068-1073. -/
def msgOfPdu (stat : Int) (d : DecodedSms) : Except PyErr Msg :=
  match d.body with
  | .deliver number _ time ud => .ok (.received stat number time ud.text d.smsc)
  | .statusReport reference number time discharge status =>
    .ok (.report stat (reference : Int) number time discharge (status : Int))
  | .submit .. => .error (.command .command none)

/-- Text mode part of `readStoredSms`, modem.py:1038-1055. -/
def parseCmgrText : List PyStr → Except PyErr Msg
  | [] => .error .indexError
  | l0 :: rest =>
    match rxGroups cmgrTextRegex l0 with
    | some [msgStatus, number, msgTime] => do
      let st ← textStatus msgStatus
      let t ← parseTextModeTimeStr msgTime
      return .received st (some number) t (pyJoin [10] rest.dropLast) none
    | _ =>
      match rxGroups cmgrReportRegex l0 with
      | some [msgStatus, reference, number, sentTime, deliverTime, deliverStatus] => do
        let msgStatus := if py!"\"".isPrefixOf msgStatus then stripQuotes msgStatus else msgStatus
        let msgStatus := if msgStatus.length = 0 then py!"REC UNREAD" else msgStatus
        let st ← textStatus msgStatus
        let ref ← pyInt reference
        let t1 ← parseTextModeTimeStr sentTime
        let t2 ← parseTextModeTimeStr deliverTime
        let ds ← pyInt deliverStatus
        return .report st ref (some number) t1 t2 ds
      | _ => .error (.command .command none)

/-- PDU mode part of `readStoredSms`, modem.py:1056-1073. -/
def parseCmgrPdu : List PyStr → Except PyErr Msg
  | [] => .error .indexError
  | l0 :: rest =>
    match rxGroups cmgrPduRegex l0 with
    | some [stat, _, _] =>
      match rest with
      | [] => .error .indexError
      | pdu :: _ => do
        let d ← decodeSmsPdu pdu
        msgOfPdu ((pyInt? stat).getD 0) d
    | _ => .error (.command .command none)

def cmgrCmd (index : PyStr) : PyStr := py!"AT+CMGR=" ++ index

/-- `readStoredSms`, modem.py:1021-1073; `index` is formatted. -/
def readStoredSms (index : PyStr) (memory : Option PyStr) : M Msg := do
  setSmsMemory memory
  let msgData ← write (cmgrCmd index)
  let s ← get
  ofExcept (if s.smsTextMode then parseCmgrText msgData else parseCmgrPdu msgData)

def cmgdCmd (index : PyStr) : PyStr := py!"AT+CMGD=" ++ index ++ py!",0"

/-- `deleteStoredSms`, modem.py:1075-1086. -/
def deleteStoredSms (index : PyStr) (memory : Option PyStr := none) : M Unit := do
  setSmsMemory memory
  let _ ← write (cmgdCmd index)

/-- `deleteMultipleStoredSms`, modem.py:1088-1112. -/
def deleteMultipleStoredSms (delFlag : Int := 4) (memory : Option PyStr := none) : M Unit :=
  if 0 < delFlag ∧ delFlag ≤ 4 then do
    setSmsMemory memory
    let _ ← write (py!"AT+CMGD=1," ++ intStr delFlag)
  else raise .valueError

/-! ### Listing -/

/-- `^\+CMGL: (\d+),"([^"]+)","([^"]+)",[^,]*,"([^"]+)"$`, modem.py:783. -/
def cmglTextRegex : List Rx :=
  rxLit py!"+CMGL: " ++ rxGrp [rxPlus isD] ++ rxLit py!",\"" ++ rxGrp [rxPlus (notC 34)] ++ rxLit py!"\",\"" ++
    rxGrp [rxPlus (notC 34)] ++ rxLit py!"\"," ++ [rxStar (notC 44)] ++ rxLit py!",\"" ++ rxGrp [rxPlus (notC 34)] ++
    rxLit py!"\"" ++ [.eol]

/-- `^\+CMGL:\s*(\d+),\s*(\d+),.*$`, modem.py:813. -/
def cmglPduRegex : List Rx :=
  rxLit py!"+CMGL:" ++ [rxStar isS] ++ rxGrp [rxPlus isD] ++ rxLit py!"," ++ [rxStar isS] ++ rxGrp [rxPlus isD] ++
    rxLit py!"," ++ [rxStar (notC 10), .eol]

/-- `delMessages.add(i)`. -/
def setAdd (l : List Int) (i : Int) : List Int := if l.contains i then l else l ++ [i]

/-- What has been collected: the messages and the indices to delete. -/
structure Listing where
  messages : List Msg
  delMessages : List Int
  deriving DecidableEq, Repr

/-- Saving a message, modem.py:797-801, 807-811. -/
def textSave (acc : Listing) (hdr : Option (PyStr × PyStr × PyStr × PyStr)) (msgLines : List PyStr) : Except PyErr Listing :=
  match hdr with
  | some (msgIndex, msgStatus, number, msgTime) =>
    if msgLines.length > 0 then do
      let st ← textStatus msgStatus
      let t ← parseTextModeTimeStr msgTime
      let i ← pyInt msgIndex
      return ⟨acc.messages ++ [.received st (some number) t (pyJoin [10] msgLines) none], setAdd acc.delMessages i⟩
    else .ok acc
  | none => .ok acc

/-- The loop over the lines of a text mode listing, modem.py:791-811. -/
def textListLoop (acc : Listing) (hdr : Option (PyStr × PyStr × PyStr × PyStr)) (msgLines : List PyStr) :
    List PyStr → Except PyErr Listing
  | [] => textSave acc hdr msgLines
  | line :: lines =>
    match rxGroups cmglTextRegex line with
    | some [msgIndex, msgStatus, number, msgTime] => do
      let acc ← textSave acc hdr msgLines
      textListLoop acc (some (msgIndex, msgStatus, number, msgTime)) [] lines
    | _ => if line ≠ py!"OK" then textListLoop acc hdr (msgLines ++ [line]) lines else textListLoop acc hdr msgLines lines

/-- The loop over the lines of a PDU mode listing, modem.py:814-837; `pending` is the header whose PDU
is to be read. -/
def pduListLoop (acc : Listing) (pending : Option (Int × Int)) : List PyStr → Except PyErr Listing
  | [] => .ok acc
  | line :: lines =>
    match pending with
    | none =>
      match rxGroups cmglPduRegex line with
      | some [i, st] => do
        let msgIndex ← pyInt i
        let msgStat ← pyInt st
        pduListLoop acc (some (msgIndex, msgStat)) lines
      | _ => pduListLoop acc none lines
    | some (msgIndex, msgStat) =>
      match decodeSmsPdu line with
      | .error .encodingError => pduListLoop acc pending lines
      | .error e => .error e
      | .ok d => do
        let m ← msgOfPdu msgStat d
        pduListLoop ⟨acc.messages ++ [m], setAdd acc.delMessages msgIndex⟩ none lines

/-- `for msgIndex in delMessages: self.deleteStoredSms(msgIndex)`, in a given order. -/
def deleteAll : List Int → M Unit
  | [] => pure ()
  | i :: is => do
    deleteStoredSms (intStr i)
    deleteAll is

/-- The same in the order of the set. -/
def deleteSet (delMessages : List Int) : M Unit := fun env s => deleteAll (env.order delMessages) env s

/-- The command that asks for a listing, modem.py:784-790, 815. -/
def listCommand (textMode : Bool) (status : Int) : Except PyErr PyStr :=
  if textMode then
    match statusText? status with
    | none => .error .valueError
    | some n => .ok (py!"AT+CMGL=\"" ++ n ++ py!"\"")
  else .ok (py!"AT+CMGL=" ++ intStr status)

/-- modem.py:791-811, 816-837. -/
def parseListing (textMode : Bool) (result : List PyStr) : Except PyErr Listing :=
  if textMode then textListLoop ⟨[], []⟩ none [] result else pduListLoop ⟨[], []⟩ none result

/-- modem.py:838-844. -/
def deleteListed (status : Int) (delete : Bool) (delMessages : List Int) : M Unit :=
  if delete then
    if status = 4 then deleteMultipleStoredSms
    else deleteSet delMessages
  else pure ()

/-- `listStoredSms`, modem.py:764-845. -/
def listStoredSms (status : Int := 4) (memory : Option PyStr := none) (delete : Bool := false) : M (List Msg) := do
  setSmsMemory memory
  let s ← get
  let cmd ← ofExcept (listCommand s.smsTextMode status)
  let result ← write cmd
  let listing ← ofExcept (parseListing s.smsTextMode result)
  deleteListed status delete listing.delMessages
  pure listing.messages

/-- A call of a user callback. -/
def callback (c : Callback) : M Unit := modify fun s => { s with callbacks := c :: s.callbacks }

def callbackAll : List Msg → M Unit
  | [] => pure ()
  | m :: ms => do
    callback (.smsReceived m)
    callbackAll ms

/-- `processStoredSms`, modem.py:744-762. -/
def processStoredSms (unreadOnly : Bool := false) : M Unit := do
  if !unreadOnly then
    let messages ← listStoredSms 1 none true
    callbackAll messages
  let messages ← listStoredSms 0 none true
  callbackAll messages

/-! ### Notifications -/

/-- `^\+CMTI:\s*"([^"]+)",(\d+)$`, modem.py:121. -/
def cmtiRegex : List Rx :=
  rxLit py!"+CMTI:" ++ [rxStar isS] ++ rxLit py!"\"" ++ rxGrp [rxPlus (notC 34)] ++ rxLit py!"\"," ++ rxGrp [rxPlus isD] ++ [.eol]

/-- `\+CDSI:\s*"([^"]+)",(\d+)$`, modem.py:131. -/
def cdsiRegex : List Rx :=
  rxLit py!"+CDSI:" ++ [rxStar isS] ++ rxLit py!"\"" ++ rxGrp [rxPlus (notC 34)] ++ rxLit py!"\"," ++ rxGrp [rxPlus isD] ++ [.eol]

/-- `_handleSmsReceived`, modem.py:991-1000. -/
def handleSmsReceived (notificationLine : PyStr) : M Unit := do
  match rxGroups cmtiRegex notificationLine with
  | some [msgMemory, msgIndex] =>
    let sms ← readStoredSms msgIndex (some msgMemory)
    deleteStoredSms msgIndex
    callback (.smsReceived sms)
  | _ => pure ()

/-- Dictionaries, in insertion order. -/
def dictGet {α : Type} (d : List (Int × α)) (k : Int) : Option α := (d.find? (·.1 = k)).map (·.2)
def dictSet {α : Type} : List (Int × α) → Int → α → List (Int × α)
  | [], k, v => [(k, v)]
  | (k', v') :: d, k, v => if k' = k then (k', v) :: d else (k', v') :: dictSet d k v
def dictDel {α : Type} (d : List (Int × α)) (k : Int) : List (Int × α) := d.filter (·.1 ≠ k)

/-- modem.py:1012-1013: `self.sentSms[report.reference].report = report`, if there is one. -/
def updateSent (report : Msg) (reference deliveryStatus : Int) : M Unit := modify fun s =>
  { s with
    sent := (match dictGet s.sentSms reference with
      | some i => s.sent.modify i fun x => { x with report := some report }
      | none => s.sent)
    smsTrace := .report reference deliveryStatus :: s.smsTrace }

/-- `_handleSmsStatusReport`, modem.py:1002-1019. A `ReceivedSms` has no `reference`. -/
def handleSmsStatusReport (notificationLine : PyStr) : M Unit := do
  match rxGroups cdsiRegex notificationLine with
  | some [msgMemory, msgIndex] =>
    let report ← readStoredSms msgIndex (some msgMemory)
    deleteStoredSms msgIndex
    match report with
    | .received .. => raise .attributeError
    | .report _ reference _ _ _ deliveryStatus =>
      updateSent report reference deliveryStatus
      let s ← get
      if s.smsStatusReportEvent.isSome then modify fun s => { s with smsStatusReportEvent := some true }
      else callback (.statusReport report)
  | _ => pure ()

/-! ### Sending, modem.py:627-666 -/

/-- `SentSms.status`, modem.py:74-85: 0 en route, 1 delivered, 2 failed. -/
def Sent.status (x : Sent) : Nat :=
  match x.report with
  | none => 0
  | some (.report _ _ _ _ _ deliveryStatus) => if deliveryStatus = 0 then 1 else 2
  | some (.received ..) => 2

/-- The loop over the PDUs, modem.py:646-648; the result is the `+CMGS:` line of the last one. -/
def sendPdus : List Pdu → Option PyStr → M (Option PyStr)
  | [], result => pure result
  | pdu :: pdus, _ => do
    let _ ← write (py!"AT+CMGS=" ++ decStr pdu.tpduLength)
    let ls ← write (pduHex pdu.data) true [26]
    sendPdus pdus (lineStartingWith py!"+CMGS:" ls)

/-- modem.py:652-657. -/
def recordSent (destination text : PyStr) (reference : Int) : M Unit := modify fun s =>
  let smsRef := reference + 1
  let smsRef := if smsRef > 255 then 0 else smsRef
  { s with smsRef := smsRef, sent := s.sent ++ [⟨destination, text, reference, none⟩], sentSms := dictSet s.sentSms reference s.sent.length, smsTrace := .sent reference :: s.smsTrace }

/-- `sendSms` without waiting; the result is the index of the `SentSms` object, modem.py:641-657, 666. -/
def sendSms [PyUnicode] (destination text : PyStr) (sendFlash : Bool := false) : M Nat := do
  let s ← get
  let result ←
    if s.smsTextMode then do
      let _ ← write (py!"AT+CMGS=\"" ++ destination ++ py!"\"")
      let ls ← write text true [26]
      pure (lineStartingWith py!"+CMGS:" ls)
    else do
      let pdus ← ofExcept (encodeSmsSubmitPdu destination text s.smsRef (sendFlash := sendFlash))
      sendPdus pdus none
  match result with
  | none => raise (.command .command none)
  | some result => do
    let reference ← ofExcept (pyInt (result.drop 7))
    recordSent destination text reference
    pure s.sent.length

end Gsm
