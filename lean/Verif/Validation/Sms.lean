import Verif.Validation.Modem
/-!
# The model of SMS messages on the repository's own tests

These are checks of the model's fidelity (test/test_modem.py, TestSms, TestStoredSms and TestSmsStatusReports),
not proofs of properties.
-/
namespace Gsm.Validation

set_option synthInstance.maxHeartbeats 200000
set_option synthInstance.maxSize 1000
attribute [local instance] asciiUnicode

def at8March : DateTime := ⟨2013, 3, 8, 15, 2, 16, 0, tz 2⟩

/-! ### TestSms -/

/-- `m` in a mode, when the next commands are answered like this. -/
def inMode {α : Type} (text : Bool) (m : M α) (answers : List (List PyStr)) (ref : Int := 0) : Except PyErr α × St × List PyStr :=
  let s := { g with smsTextMode := text, smsRef := ref }
  let r := ask m answers s
  (r.1, r.2, written s r.2)

/-- The number, text, reference and status of the message sent, and what was written. -/
def sentTest (text : Bool) (number message : PyStr) (answers : List (List PyStr)) (ref : Int) :
    Except PyErr Nat × List (PyStr × PyStr × Int × Nat) × List PyStr :=
  let r := inMode text (sendSms number message) answers ref
  (r.1, r.2.1.sent.map (fun x => (x.number, x.text, x.reference, x.status)), r.2.2)

-- test_sendSmsTextMode
example : sentTest true py!"+0123456789" py!"Hello world!" [[py!"> "], [py!"+CMGS: 142", py!"OK"]] 142
    = (.ok 0, [(py!"+0123456789", py!"Hello world!", 142, 0)], [py!"AT+CMGS=\"+0123456789\"\r", py!"Hello world!" ++ [26]]) := by
  decide +kernel
example : sentTest true py!"+9876543210" py!"Hallo\nhoe gaan dit?" [[py!"> "], [py!"+CMGS: 33", py!"OK"]] 33
    = (.ok 0, [(py!"+9876543210", py!"Hallo\nhoe gaan dit?", 33, 0)],
      [py!"AT+CMGS=\"+9876543210\"\r", py!"Hallo\nhoe gaan dit?" ++ [26]]) := by decide +kernel

/-- What test_sendSmsPduMode expects to be written. -/
def submitCommands (number message : PyStr) (ref : Nat) : Option (List PyStr) :=
  match encodeSmsSubmitPdu number message ref with
  | .ok [p] => some [py!"AT+CMGS=" ++ decStr p.tpduLength ++ [13], pduHex p.data ++ [26]]
  | _ => none

-- test_sendSmsPduMode
example :
    let r := sentTest false py!"+0123456789" py!"Hello world!" [[py!"> "], [py!"+CMGS: 142", py!"OK"]] 142
    (r.1, r.2.1, some r.2.2) = (.ok 0, [(py!"+0123456789", py!"Hello world!", 142, 0)],
      submitCommands py!"+0123456789" py!"Hello world!" 142) := by decide +kernel
example :
    let r := sentTest false py!"+353870000000" py!"My message" [[py!"> "], [py!"+CMGS: 0", py!"OK"]] 0
    (r.1, r.2.1, some r.2.2) = (.ok 0, [(py!"+353870000000", py!"My message", 0, 0)],
      submitCommands py!"+353870000000" py!"My message" 0) := by decide +kernel

-- test_sendSmsResponseMixedWithUnsolictedMessages
example :
    let noise := [py!"+ZDONR: \"METEOR\",272,3,\"CS_ONLY\",\"ROAM_OFF\"", py!"+ZPASR: \"UMTS\""]
    let more := [py!"+ZDONR: \"METEOR\",272,3,\"CS_PS\",\"ROAM_OFF\"", py!"+ZPASR: \"UMTS\""]
    let r := sentTest false py!"+9876543210" py!"Hallo\nhoe gaan dit?" [noise ++ [py!"> "], noise ++ more ++ [py!"+CMGS: 33", py!"OK"]] 33
    (r.1, r.2.1, some r.2.2) = (.ok 0, [(py!"+9876543210", py!"Hallo\nhoe gaan dit?", 33, 0)],
      submitCommands py!"+9876543210" py!"Hallo\nhoe gaan dit?" 33) := by decide +kernel

-- test_receiveSmsTextMode
example :
    let s := { g with smsTextMode := true }
    let r := ask (Event.run (.notify [py!"+CMTI: \"SM\",1"])) [ok, [py!"+CMGR: \"REC UNREAD\",\"+0123456789\",,\"13/03/08,15:02:16+08\"", py!"Hello world!", py!"OK"]] s
    (r.2.callbacks, written s r.2)
      = ([.smsReceived (.received 0 (some py!"+0123456789") at8March py!"Hello world!" none)],
        [py!"AT+CPMS=\"SM\"\r", py!"AT+CMGR=1\r", py!"AT+CMGD=1,0\r"]) := by decide +kernel
example :
    let s := { g with smsTextMode := true, smsMemReadDelete := some py!"SM" }
    let r := ask (Event.run (.notify [py!"+CMTI: \"SM\",4"])) [[py!"+CMGR: \"REC UNREAD\",\"+9876543210\",,\"13/03/08,15:02:16+08\"", py!"Hallo\nhoe gaan dit?", py!"OK"]] s
    (r.2.callbacks, written s r.2)
      = ([.smsReceived (.received 0 (some py!"+9876543210") at8March py!"Hallo\nhoe gaan dit?" none)],
        [py!"AT+CMGR=4\r", py!"AT+CMGD=4,0\r"]) := by decide +kernel
example :
    let s := { g with smsTextMode := true, smsMemReadDelete := some py!"SM" }
    let r := ask (Event.run (.notify [py!"+CMTI: \"ME\",13"])) [ok, [py!"+CMGR: \"REC UNREAD\",\"+353870000000\",,\"13/04/20,20:22:27+16\"", py!"My message", py!"OK"]] s
    (r.2.callbacks, written s r.2)
      = ([.smsReceived (.received 0 (some py!"+353870000000") ⟨2013, 4, 20, 20, 22, 27, 0, tz 4⟩ py!"My message" none)],
        [py!"AT+CPMS=\"ME\"\r", py!"AT+CMGR=13\r", py!"AT+CMGD=13,0\r"]) := by decide +kernel

/-- test_receiveSmsPduMode: the callbacks for each of the address texts. -/
def receivePdu (index pdu length : PyStr) : List (List Callback) :=
  [py!"", py!"\"abc123\"", py!"\"\"", py!"Test User 123", py!"9876543231"].map fun addressText =>
    (ask (Event.run (.notify [py!"+CMTI: \"SM\"," ++ index]))
      [ok, [py!"+CMGR: 0," ++ addressText ++ py!"," ++ length, pdu, py!"OK"]]).2.callbacks

example : receivePdu py!"1" py!"06917228195339040A9110325476980000313080512061800CC8329BFD06DDDF72363904" py!"29"
    = List.replicate 5 [.smsReceived (.received 0 (some py!"+0123456789") at8March py!"Hello world!" (some py!"+2782913593"))] := by
  decide +kernel
example : receivePdu py!"4" py!"06917228195339040A91896745230100003130805120618013C8309BFD56A0DF65D0391C7683C869FA0F" py!"35"
    = List.replicate 5
      [.smsReceived (.received 0 (some py!"+9876543210") at8March py!"Hallo\nhoe gaan dit?" (some py!"+2782913593"))] := by
  decide +kernel

-- test_sendSms_refCount
example :
    let send (s : St) (ref : PyStr) : St := (ask (sendSms py!"+27820000000" py!"Test message") [[py!"> "], [py!"+CMGS: " ++ ref, py!"OK"]] s).2
    let s1 := send g py!"0"
    let s2 := send s1 py!"1"
    let s3 := send { s2 with smsRef := 255 } py!"255"
    let s4 := send s3 py!"0"
    (s1.smsRef, s2.smsRef, s3.smsRef, s4.sent.map (·.reference)) = (1, 2, 0, [0, 1, 255, 0]) := by decide +kernel

-- test_sendSms_waitForDeliveryReport
def reportAnswers : List PyStr → Option (List PyStr) :=
  byCommand [(py!"AT+CMGS", [py!"> "]), (py!"AT+CMGR", [py!"+CMGR: 0,,24", py!"07917248014000F506B70AA18092020000317071518590803170715185418000", py!"OK"]),
    (py!"0", [py!"+CMGS: 183", py!"OK"])]

example :
    let r := sendSmsWait py!"0829200000" py!"Test message" false [] [.notify [py!"+CDSI: \"SM\",3"]] (generic.env reportAnswers) { g with smsRef := 183 }
    (r.1, r.2.sent.map (fun x => (x.status, x.report)))
      = (.ok 0, [(1, some (.report 0 183 (some py!"0829200000") ⟨2013, 7, 17, 15, 58, 9, 0, tz 2⟩ ⟨2013, 7, 17, 15, 58, 14, 0, tz 2⟩ 0))]) := by
  decide +kernel
example : (sendSmsWait py!"0829200000" py!"Test message" false [] [] (generic.env reportAnswers) { g with smsRef := 183 }).1
    = .error (.timeout none) := by decide +kernel

-- test_sendSms_noCgmsResponse
example : (ask (sendSms py!"+27820000000" py!"Test message") [ok, ok]).1 = .error (.command .command none) := by decide +kernel

/-! ### TestStoredSms -/

/-- The simulated modem with three messages, in PDU mode and in text mode. -/
def header0 : PyStr := py!"+CMGL: 0,0,,35"
def pdu0 : PyStr := py!"07917248014000F3240B917247587706F400003110824115248012C8329BFD06C9C373B8B82C97E741F034"
def pdu1 : PyStr := py!"07917248010080F020109172480010359099990000312070101344809FCEF21D14769341E8B2BC0CA2BF41737A381F0211DFEE131DA4AECFE92079798C0ECBCF65D0B40A0D0E9141E9B1080ABBC9A073990ECABFEB7290BC3C4687E5E73219144ECBE9E976796594168BA06199CD1E82E86FD0B0CC660F41EDB47B0E3281A6CDE97C659497CB2072981E06D1DFA0FABC0C0ABBF3F474BBEC02514D4350180E67E75DA06199CD060D01"
def pdu2 : PyStr := py!"07917248010080F0240B917248001064F30000312070604220809F537AD84D0ECBC92061D8BDD681B2EFBA1C141E8FDF75377D0E0ACBCB20F71BC47EBBCF6539C8981C0641E3771BCE4E87DD741708CA2E87E76590589E769F414922C80482CBDF6F33E86D06C9CBF334B9EC1E9741F43728ECCE83C4F2B07B8C06D1DF2079393CA6A7ED617A19947FD7E5A0F078FCAEBBE97317285A2FCBD3E5F90F04C3D96030D88C2693B900"
def text1 : PyStr := py!"New and here to stay! Don't just recharge SUPACHARGE and get your recharged airtime+FREE CellC to CellC mins & SMSs+Free data to use anytime. T&C apply. Cell C"
def text2 : PyStr := py!"Standard Bank: Your accounts are no longer FICA compliant. Please bring ID & proof of residence to any branch to reactivate your accounts. Queries? 0860003422."

def bad : List PyStr := [py!"ERROR"]

def storedPdu : Fake := { generic with responses := [
    (py!"AT+CMGL=0\r", [header0, pdu0, py!"OK"]),
    (py!"AT+CMGL=1\r", [py!"+CMGL: 1,1,,161", pdu1, py!"+CMGL: 2,1,,159", pdu2, py!"OK"]),
    (py!"AT+CMGL=4\r", [header0, pdu0, py!"+CMGL: 1,1,,161", pdu1, py!"+CMGL: 2,1,,159", pdu2, py!"OK"]),
    (py!"AT+CMGL=\"REC UNREAD\"\r", bad), (py!"AT+CMGL=\"REC READ\"\r", bad), (py!"AT+CMGL=\"STO UNSENT\"\r", bad),
    (py!"AT+CMGL=\"STO SENT\"\r", bad), (py!"AT+CMGL=\"ALL\"\r", bad),
    (py!"AT+CMGR=0\r", [py!"+CMGR: 0,,35", pdu0, py!"OK"])] ++ generic.responses }

def storedText : Fake := { generic with responses := [
    (py!"AT+CMGL=\"REC UNREAD\"\r", [py!"+CMGL: 0,\"REC UNREAD\",\"+27748577604\",,\"13/01/28,14:51:42+08\"", py!"Hello raspberry pi", py!"OK"]),
    (py!"AT+CMGL=\"REC READ\"\r", [py!"+CMGL: 1,\"REC READ\",\"+2784000153099999\",,\"13/02/07,01:31:44+08\"", text1,
      py!"+CMGL: 2,\"REC READ\",\"+27840001463\",,\"13/02/07,06:24:02+08\"", text2, py!"OK"]),
    (py!"AT+CMGL=\"ALL\"\r", [py!"+CMGL: 0,\"REC UNREAD\",\"+27748577604\",,\"13/01/28,14:51:42+08\"", py!"Hello raspberry pi",
      py!"+CMGL: 1,\"REC READ\",\"+2784000153099999\",,\"13/02/07,01:31:44+08\"", text1,
      py!"+CMGL: 2,\"REC READ\",\"+27840001463\",,\"13/02/07,06:24:02+08\"", text2, py!"OK"]),
    (py!"AT+CMGL=0\r", bad), (py!"AT+CMGL=1\r", bad), (py!"AT+CMGL=2\r", bad), (py!"AT+CMGL=3\r", bad),
    (py!"AT+CMGL=4\r", bad)] ++ generic.responses }

/-- The expected messages: status, number, text and time. -/
def message0 : Int × Option PyStr × PyStr × DateTime :=
  (0, some py!"+27748577604", py!"Hello raspberry pi", ⟨2013, 1, 28, 14, 51, 42, 0, tz 2⟩)
def message1 : Int × Option PyStr × PyStr × DateTime := (1, some py!"+2784000153099999", text1, ⟨2013, 2, 7, 1, 31, 44, 0, tz 2⟩)
def message2 : Int × Option PyStr × PyStr × DateTime := (1, some py!"+27840001463", text2, ⟨2013, 2, 7, 6, 24, 2, 0, tz 2⟩)

def fields : Msg → Option (Int × Option PyStr × PyStr × DateTime)
  | .received st n t x _ => some (st, n, x, t)
  | .report .. => none

def startPdu : St := storedPdu.connected
def startText : St := (connect none storedText.env { smsTextMode := true }).2

/-- The messages listed, and what was written. -/
def listTest (f : Fake) (s : St) (m : M (List Msg)) : Except PyErr (List (Option (Int × Option PyStr × PyStr × DateTime))) × List PyStr :=
  let r := m f.env s
  (r.1.map (·.map fields), written s r.2)

-- test_listStoredSms_pdu
example : listTest storedPdu startPdu listStoredSms = (.ok [some message0, some message1, some message2], [py!"AT+CMGL=4\r"]) := by
  decide +kernel
example : listTest storedPdu startPdu (listStoredSms 0) = (.ok [some message0], [py!"AT+CMGL=0\r"]) := by decide +kernel
example : listTest storedPdu startPdu (listStoredSms 1) = (.ok [some message1, some message2], [py!"AT+CMGL=1\r"]) := by decide +kernel
example : listTest storedPdu startPdu (listStoredSms 3) = (.ok [], [py!"AT+CMGL=3\r"]) := by decide +kernel
example : listTest storedPdu startPdu (listStoredSms 2) = (.ok [], [py!"AT+CMGL=2\r"]) := by decide +kernel
example : listTest storedPdu startPdu (listStoredSms 4 none true)
    = (.ok [some message0, some message1, some message2], [py!"AT+CMGL=4\r", py!"AT+CMGD=1,4\r"]) := by decide +kernel
example : listTest storedPdu startPdu (listStoredSms 1 none true)
    = (.ok [some message1, some message2], [py!"AT+CMGL=1\r", py!"AT+CMGD=1,0\r", py!"AT+CMGD=2,0\r"]) := by decide +kernel
-- a line that does not belong there is ignored
example :
    let f := storedPdu.respond py!"AT+CMGL=4\r" [header0, py!"AFSDLF SDKFJSKDLFJLKSDJF SJDLKFSKLDJFKSDFS", pdu0, py!"+CMGL: 1,1,,161", pdu1,
      py!"+CMGL: 2,1,,159", pdu2, py!"OK"]
    listTest f startPdu listStoredSms = (.ok [some message0, some message1, some message2], [py!"AT+CMGL=4\r"]) := by decide +kernel

-- test_listStoredSms_text
example : listTest storedText startText listStoredSms
    = (.ok [some message0, some message1, some message2], [py!"AT+CMGL=\"ALL\"\r"]) := by decide +kernel
example : listTest storedText startText (listStoredSms 0) = (.ok [some message0], [py!"AT+CMGL=\"REC UNREAD\"\r"]) := by decide +kernel
example : listTest storedText startText (listStoredSms 1)
    = (.ok [some message1, some message2], [py!"AT+CMGL=\"REC READ\"\r"]) := by decide +kernel
example : listTest storedText startText (listStoredSms 3) = (.ok [], [py!"AT+CMGL=\"STO SENT\"\r"]) := by decide +kernel
example : listTest storedText startText (listStoredSms 2) = (.ok [], [py!"AT+CMGL=\"STO UNSENT\"\r"]) := by decide +kernel
example : listTest storedText startText (listStoredSms 4 none true)
    = (.ok [some message0, some message1, some message2], [py!"AT+CMGL=\"ALL\"\r", py!"AT+CMGD=1,4\r"]) := by decide +kernel
example : listTest storedText startText (listStoredSms 1 none true)
    = (.ok [some message1, some message2], [py!"AT+CMGL=\"REC READ\"\r", py!"AT+CMGD=1,0\r", py!"AT+CMGD=2,0\r"]) := by decide +kernel
example : listTest storedText startText (listStoredSms 99) = (.error .valueError, []) := by decide +kernel

-- test_processStoredSms (callbacks are recorded most recent first)
def passedOn (c : Callback) : Option (Int × Option PyStr × PyStr × DateTime) :=
  match c with
  | .smsReceived m => fields m
  | _ => none

example :
    let r := processStoredSms false storedPdu.env startPdu
    (r.1, r.2.callbacks.map passedOn, written startPdu r.2)
      = (.ok (), [some message0, some message2, some message1],
        [py!"AT+CMGL=1\r", py!"AT+CMGD=1,0\r", py!"AT+CMGD=2,0\r", py!"AT+CMGL=0\r", py!"AT+CMGD=0,0\r"]) := by decide +kernel
example :
    let r := processStoredSms true storedPdu.env startPdu
    (r.1, r.2.callbacks.map passedOn, written startPdu r.2)
      = (.ok (), [some message0], [py!"AT+CMGL=0\r", py!"AT+CMGD=0,0\r"]) := by decide +kernel

/-- The outcome, and what was written. -/
def wrote {α : Type} (f : Fake) (s : St) (m : M α) : Except PyErr α × List PyStr := let r := m f.env s; (r.1, written s r.2)

-- test_deleteStoredSms
example : wrote storedText startText (deleteStoredSms py!"2") = (.ok (), [py!"AT+CMGD=2,0\r"]) := by decide +kernel
example : wrote storedText startText (do deleteStoredSms py!"5" (some py!"TEST1"); deleteStoredSms py!"32" (some py!"ME"))
    = (.ok (), [py!"AT+CPMS=\"TEST1\"\r", py!"AT+CMGD=5,0\r", py!"AT+CPMS=\"ME\"\r", py!"AT+CMGD=32,0\r"]) := by decide +kernel

-- test_deleteMultipleStoredSms
example : [4, 3, 2, 1].map (fun n => wrote storedText startText (deleteMultipleStoredSms n))
    = [(.ok (), [py!"AT+CMGD=1,4\r"]), (.ok (), [py!"AT+CMGD=1,3\r"]), (.ok (), [py!"AT+CMGD=1,2\r"]), (.ok (), [py!"AT+CMGD=1,1\r"])] := by
  decide +kernel
example : wrote storedText startText (do deleteMultipleStoredSms 4 (some py!"TEST1"); deleteMultipleStoredSms 4 (some py!"ME"))
    = (.ok (), [py!"AT+CPMS=\"TEST1\"\r", py!"AT+CMGD=1,4\r", py!"AT+CPMS=\"ME\"\r", py!"AT+CMGD=1,4\r"]) := by decide +kernel
example : wrote storedText startText (deleteMultipleStoredSms) = (.ok (), [py!"AT+CMGD=1,4\r"]) := by decide +kernel
example : [0, 5, -3].map (fun n => wrote storedText startText (deleteMultipleStoredSms n))
    = List.replicate 3 (.error .valueError, []) := by decide +kernel

-- test_readStoredSms_pdu
example : wrote storedPdu startPdu (do let m ← readStoredSms py!"0" none; pure (fields m)) = (.ok (some message0), [py!"AT+CMGR=0\r"]) := by
  decide +kernel
example : wrote storedPdu startPdu (do let m ← readStoredSms py!"0" (some py!"TEST1"); pure (fields m))
    = (.ok (some message0), [py!"AT+CPMS=\"TEST1\"\r", py!"AT+CMGR=0\r"]) := by decide +kernel

/-! ### TestSmsStatusReports -/

-- test_receiveStatusReportTextMode
example :
    let s := { g with smsTextMode := true }
    let r := ask (Event.run (.notify [py!"+CDSI: \"SR\",57"]))
      [ok, [py!"+CMGR: ,6,20,\"0870000000\",129,\"13/04/29,19:58:00+04\",\"13/04/29,19:59:00+04\",0", py!"OK"]] s
    (r.2.callbacks, written s r.2)
      = ([.statusReport (.report 0 20 (some py!"0870000000") ⟨2013, 4, 29, 19, 58, 0, 0, tz 1⟩ ⟨2013, 4, 29, 19, 59, 0, 0, tz 1⟩ 0)],
        [py!"AT+CPMS=\"SR\"\r", py!"AT+CMGR=57\r", py!"AT+CMGD=57,0\r"]) := by decide +kernel

-- test_receiveStatusReportPduMode
example :
    let r := ask (Event.run (.notify [py!"+CDSI: \"SM\",3"]))
      [ok, [py!"+CMGR: 0,,24", py!"07917248014000F506B70AA18092020000317071518590803170715185418000", py!"OK"]]
    (r.2.callbacks, written g r.2)
      = ([.statusReport (.report 0 183 (some py!"0829200000") ⟨2013, 7, 17, 15, 58, 9, 0, tz 2⟩ ⟨2013, 7, 17, 15, 58, 14, 0, tz 2⟩ 0)],
        [py!"AT+CPMS=\"SM\"\r", py!"AT+CMGR=3\r", py!"AT+CMGD=3,0\r"]) := by decide +kernel
-- also test_receiveSmsPduMode_problemCases
example :
    let r := ask (Event.run (.notify [py!"+CDSI: \"SM\",1"]))
      [ok, [py!"+CMGR: ,,27", py!"0297F1061C0F910B487228297020F5317062419272803170624192138000", py!"OK"]]
    r.2.callbacks
      = [.statusReport (.report 0 28 (some py!"+b08427829207025") ⟨2013, 7, 26, 14, 29, 27, 0, tz 2⟩ ⟨2013, 7, 26, 14, 29, 31, 0, tz 2⟩ 0)] := by
  decide +kernel

end Gsm.Validation
