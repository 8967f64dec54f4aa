import Verif.Validation.FakeModems
import Verif.Validation.Pdu
/-!
# The model of the modem object on the repository's own tests

These are checks of the model's fidelity (test/test_modem.py), not proofs of properties. What a test reads from
`serial.responseSequence` is the answer to the next command; what follows the end of that answer is a notification.
-/
namespace Gsm.Validation

attribute [local instance] asciiUnicode

/-- The modem of the tests, connected. -/
def g : St := generic.connected

/-- `m` when the next commands are answered like this. -/
def ask {α : Type} (m : M α) (answers : List (List PyStr)) (s : St := g) : Except PyErr α × St :=
  m (generic.env (after s answers)) s

/-- The result, and the commands written. -/
def asked {α : Type} (m : M α) (answers : List (List PyStr)) (s : St := g) : Except PyErr α × List PyStr :=
  let r := ask m answers s
  (r.1, written s r.2)

/-- `m` when commands with a given beginning are answered like this. -/
def byCommand (table : List (PyStr × List PyStr)) : List PyStr → Option (List PyStr)
  | [] => none
  | cmd :: _ => (table.find? fun x => x.1.isPrefixOf cmd).map (·.2)

def ok : List PyStr := [py!"OK"]

/-! ### TestGsmModemGeneralApi -/

-- test_manufacturer, test_model, test_revision, test_imei, test_imsi
example : asked manufacturer [[py!"huawei", py!"OK"]] = (.ok py!"huawei", [py!"AT+CGMI\r"]) := by decide +kernel
example : asked manufacturer [[py!"Some Random Manufacturer", py!"OK"]]
    = (.ok py!"Some Random Manufacturer", [py!"AT+CGMI\r"]) := by decide +kernel
example : asked model [[py!"1324-Qwerty", py!"OK"]] = (.ok py!"1324-Qwerty", [py!"AT+CGMM\r"]) := by decide +kernel
example : asked revision [[py!"1324-56768-23414", py!"OK"]]
    = (.ok (some py!"1324-56768-23414"), [py!"AT+CGMR\r"]) := by decide +kernel
example : asked revision [[py!"ERROR"]] = (.ok none, [py!"AT+CGMR\r"]) := by decide +kernel
example : asked imei [[py!"012345678912345", py!"OK"]] = (.ok py!"012345678912345", [py!"AT+CGSN\r"]) := by decide +kernel
example : asked imsi [[py!"987654321012345", py!"OK"]] = (.ok py!"987654321012345", [py!"AT+CIMI\r"]) := by decide +kernel

-- test_networkName
example : asked networkName [[py!"+COPS: 0,0,\"MTN\",2", py!"OK"]] = (.ok (some py!"MTN"), [py!"AT+COPS?\r"]) := by
  decide +kernel
example : (ask networkName [[py!"+COPS: 0,0,\"I OMNITEL\"", py!"OK"]]).1 = .ok (some py!"I OMNITEL") := by decide +kernel
example : (ask networkName [[py!"SOME RANDOM RESPONSE", py!"OK"]]).1 = .ok none := by decide +kernel

-- test_supportedCommands
example : asked supportedCommands [[py!"+CLAC:&C,D,E,\\S,+CGMM,^DTMF", py!"OK"]]
    = (.ok (some [py!"&C", py!"D", py!"E", py!"\\S", py!"+CGMM", py!"^DTMF"]), [py!"AT+CLAC\r"]) := by decide +kernel
example : (ask supportedCommands [[py!"+CLAC:Z", py!"OK"]]).1 = .ok (some [py!"Z"]) := by decide +kernel
example : (ask supportedCommands [[py!"FGH,RTY,UIO", py!"OK"]]).1 = .ok (some [py!"FGH", py!"RTY", py!"UIO"]) := by
  decide +kernel
example : (ask supportedCommands [[py!"A", py!"BCD", py!"EFGH", py!"OK"]]).1
    = .ok (some [py!"A", py!"BCD", py!"EFGH"]) := by decide +kernel
example : (ask supportedCommands [[py!"Q\r", py!"QWERTY\r", py!"^DTMF\r", py!"OK"]]).1
    = .ok (some [py!"Q", py!"QWERTY", py!"^DTMF"]) := by decide +kernel
example : (ask supportedCommands [[py!"ERROR"]]).1 = .ok none := by decide +kernel
example : (ask supportedCommands [[py!"OK"]]).1 = .ok none := by decide +kernel

-- test_smsc
example : asked getSmsc [[py!"OK"]] = (.ok none, [py!"AT+CSCA?\r"]) := by decide +kernel
example : asked getSmsc [[py!"+CSCA: \"+12345678\",145", py!"OK"]] = (.ok (some py!"+12345678"), [py!"AT+CSCA?\r"]) := by
  decide +kernel
example : asked (do setSmsc (some py!"+12345678"); let a ← getSmsc; setSmsc (some py!"+12345678"); let b ← getSmsc; pure (a, b)) []
    = (.ok (some py!"+12345678", some py!"+12345678"), [py!"AT+CSCA=\"+12345678\"\r"]) := by decide +kernel
example : asked getSmsc [[py!"+CMS ERROR: 330"]] = (.ok none, [py!"AT+CSCA?\r"]) := by decide +kernel

-- test_signalStrength
example : asked signalStrength [[py!"+CSQ: 18,99", py!"OK"]] = (.ok 18, [py!"AT+CSQ\r"]) := by decide +kernel
example : (ask signalStrength [[py!"+CSQ:4,0", py!"OK"]]).1 = .ok 4 := by decide +kernel
example : (ask signalStrength [[py!"+CSQ: 99,99", py!"OK"]]).1 = .ok (-1) := by decide +kernel
example : (ask signalStrength [[py!"OK"]]).1 = .error (.command .command none) := by decide +kernel

-- test_waitForNetorkCoverageNoCreg
example : (ask (waitForNetworkCoverage 9) [ok, [py!"+CSQ: 82,99", py!"OK"]]).1 = .ok 82 := by decide +kernel
example : (ask (waitForNetworkCoverage 9)
    [ok, [py!"+CSQ: 99,99", py!"OK"], [py!"+CSQ: 99,99", py!"OK"], [py!"+CSQ: 47,99", py!"OK"]]).1 = .ok 47 := by decide +kernel

-- test_waitForNetorkCoverage
example : (ask (waitForNetworkCoverage 9) [[py!"+CREG: 0,2", py!"OK"], [py!"+CREG: 0,2", py!"OK"], [py!"+CREG: 0,1", py!"OK"],
    [py!"+CSQ: 82,99", py!"OK"]]).1 = .ok 82 := by decide +kernel
example : (ask (waitForNetworkCoverage 9) [[py!"+CREG: 0,5", py!"OK"], [py!"+CSQ: 47,99", py!"OK"]]).1 = .ok 47 := by
  decide +kernel
example : (ask (waitForNetworkCoverage 9) [[py!"+CREG: 0,3", py!"OK"]]).1 = .error .invalidState := by decide +kernel
example : (ask (waitForNetworkCoverage 9) [[py!"+CREG: 0,0", py!"OK"]]).1 = .error .invalidState := by decide +kernel

-- test_errorTypes
example : (ask (write py!"AT") [[py!"ERROR"]]).1 = .error (.command .command none) := by decide +kernel
example : (ask (write py!"AT+ZZZ") [[py!"+CME ERROR: 22"]]).1 = .error (.command .cme (some 22)) := by decide +kernel
example : (ask (write py!"AT+XYZ") [[py!"+CMS ERROR: 310"]]).1 = .error (.command .cms (some 310)) := by decide +kernel

/-! ### TestUssd -/

/-- The result of `sendUssd`, first when the result follows the answer, then when it precedes the final `OK`
(test_sendUssd, test_sendUssdResponseBeforeOk). -/
def ussd2 (text : PyStr) (result : List PyStr) : Except PyErr (Option Ussd) × Except PyErr (Option Ussd) × List PyStr :=
  ((ask (sendUssd text [.notify result]) [ok]).1, asked (sendUssd text []) [result ++ ok])

example : ussd2 py!"*101#" [py!"+CUSD: 0,\"Available Balance: R 96.45 .\",15"]
    = (.ok (some ⟨false, some py!"Available Balance: R 96.45 ."⟩), .ok (some ⟨false, some py!"Available Balance: R 96.45 ."⟩),
      [py!"AT+CUSD=1,\"*101#\",15\r"]) := by decide +kernel
example : ussd2 py!"*120*500#" [py!"+CUSD: 1,\"Hallo daar\",15"]
    = (.ok (some ⟨true, some py!"Hallo daar"⟩), .ok (some ⟨true, some py!"Hallo daar"⟩), [py!"AT+CUSD=1,\"*120*500#\",15\r"]) := by
  decide +kernel
example : ussd2 py!"*130*111#" [py!"+CUSD: 2,\"Totsiens\",15"]
    = (.ok (some ⟨false, some py!"Totsiens"⟩), .ok (some ⟨false, some py!"Totsiens"⟩), [py!"AT+CUSD=1,\"*130*111#\",15\r"]) := by
  decide +kernel
example : ussd2 py!"*111*502#" [py!"+CUSD: 2,\"You have the following remaining balances:\n0 free minutes\n20 MORE Weekend minutes \",15"]
    = (.ok (some ⟨false, some py!"You have the following remaining balances:\n0 free minutes\n20 MORE Weekend minutes "⟩),
      .ok (some ⟨false, some py!"You have the following remaining balances:\n0 free minutes\n20 MORE Weekend minutes "⟩),
      [py!"AT+CUSD=1,\"*111*502#\",15\r"]) := by decide +kernel
example : ussd2 py!"#100#" [py!"+CUSD: 1,\"Bal:$100.00 *", py!"Exp 01 Jan 2013", py!"1. Recharge", py!"2. Balance",
      py!"00. Home", py!"*charges can take 48hrs\",15"]
    = (.ok (some ⟨true, some py!"Bal:$100.00 *\r\nExp 01 Jan 2013\r\n1. Recharge\r\n2. Balance\r\n00. Home\r\n*charges can take 48hrs"⟩),
      .ok (some ⟨true, some py!"Bal:$100.00 *\r\nExp 01 Jan 2013\r\n1. Recharge\r\n2. Balance\r\n00. Home\r\n*charges can take 48hrs"⟩),
      [py!"AT+CUSD=1,\"#100#\",15\r"]) := by decide +kernel
example : asked (Ussd.cancel ⟨true, none⟩) [] = (.ok (), [py!"AT+CUSD=2\r"]) := by decide +kernel
example : asked (Ussd.cancel ⟨false, none⟩) [] = (.ok (), []) := by decide +kernel

-- test_sendUssd_differentModems
example : modems.map (fun f =>
    let f := f.respond py!"AT+CUSD=1,\"*101#\",15\r" [py!"+CUSD: 2,\"Testing 123\",15", py!"OK"]
    (sendUssd py!"*101#" [] f.env f.connected).1)
    = List.replicate 6 (.ok (some ⟨false, some py!"Testing 123"⟩)) := by decide +kernel

-- test_sendUssdReply
example : (ask (do
      let u ← sendUssd py!"*101#" []
      match u with
      | some u => do let v ← u.reply py!"1" []; pure (u, v)
      | none => M.raise .typeError)
    [[py!"+CUSD: 1,\"First menu. Reply with 1 for blah blah blah...\",15", py!"OK"], [py!"+CUSD: 2,\"Second menu\",15", py!"OK"]]).1
    = .ok (⟨true, some py!"First menu. Reply with 1 for blah blah blah..."⟩, some ⟨false, some py!"Second menu"⟩) := by
  decide +kernel
example : (ask (Ussd.reply ⟨false, some py!"Second menu"⟩ py!"2" []) []).1 = .error .invalidState := by decide +kernel

-- test_sendUssdExtraRelease
example : (ask (sendUssd py!"*100#" [])
    [[py!"+CUSD: 2,\"Initiating Release\",15", py!"+CUSD: 0,\"Wrong order test message\",15", py!"OK"]]).1
    = .ok (some ⟨false, some py!"Wrong order test message"⟩) := by decide +kernel
example : (ask (sendUssd py!"*101#" [.notify [py!"+CUSD: 2,\"Initiating Release\",15", py!"+CUSD: 0,\"Notifications test\",15"]]) [ok]).1
    = .ok (some ⟨false, some py!"Notifications test"⟩) := by decide +kernel
example : (ask (sendUssd py!"*101#" [.notify [py!"+CUSD: 3,\"Other local client responded\",15", py!"+CUSD: 0,\"Test2\",15"]]) [ok]).1
    = .ok (some ⟨false, some py!"Test2"⟩) := by decide +kernel

-- test_sendUssdError
example : (ask (sendUssd py!"*101#" []) [[py!"+CME ERROR: 30"]]).1 = .error (.command .cme (some 30)) := by decide +kernel
example : (ask (sendUssd py!"*101#" []) [[py!"+CMS ERROR: 500"]]).1 = .error (.command .cms (some 500)) := by decide +kernel
example : (ask (sendUssd py!"*101#" []) [[py!"ERROR"]]).1 = .error (.command .command none) := by decide +kernel

-- test_sendUssdExtraLinesInResponse
example : (ask (sendUssd py!"*101#" [.notify [py!"+CUSD: 2,\"Notification appended\",15", py!"Some random notification!"]]) [ok]).1
    = .ok (some ⟨false, some py!"Notification appended"⟩) := by decide +kernel
example : (ask (sendUssd py!"*101#" [.notify [py!"Another random notification!", py!"+CUSD: 2,\"Notification prepended\",15"]]) [ok]).1
    = .ok (some ⟨false, some py!"Notification prepended"⟩) := by decide +kernel
example : (ask (sendUssd py!"*101#" [.notify [py!"+CUSD: 2,\"Notification before OK\",15"]])
    [[py!"Yet another random notification!", py!"OK"]]).1 = .ok (some ⟨false, some py!"Notification before OK"⟩) := by decide +kernel

-- test_sendUssd_responseTimeout
example : (ask (sendUssd py!"*101#" []) [ok]).1 = .error (.timeout none) := by decide +kernel

/-! ### TestEdgeCases -/

-- test_smscPreloaded
example : modems.map (fun f =>
    let f := { f with smsc := some py!"+12345678", simBusy := 3 }
    (getSmsc f.env f.connected).1) = List.replicate 6 (.ok (some py!"+12345678")) := by decide +kernel
example : modems.map (fun f =>
    let f := { f with simBusy := 3 }
    (getSmsc f.env f.connected).1) = List.replicate 6 (.ok none) := by decide +kernel

-- test_cfun0
example : modems.map (fun f =>
    let f := { f with cfun := 0 }
    ((connect none f.env {}).1, f.connected.log.contains py!"AT+CFUN=1\r")) = List.replicate 6 (.ok (), true) := by
  decide +kernel

-- test_cfunNotSupported
example :
    let f := ({ generic with cfun := -1 }.respond py!"AT+CFUN?\r" [py!"ERROR"]).respond py!"AT+CFUN=1\r" [py!"ERROR"]
    ((connect none f.env {}).1, f.connected.log.contains py!"AT+CFUN?\r") = (.ok (), true) := by decide +kernel

-- test_commandNotSupported
example :
    let f := generic.respond py!"AT+WIND?\r" [py!"COMMAND NOT SUPPORT"]
    ((connect none f.env {}).1, (write py!"AT+WIND?" true [13] f.env f.connected).1)
      = (.ok (), .error (.command .command none)) := by decide +kernel

-- test_wavecomConnectSpecifics
example :
    let f := (wavecom.respond py!"AT+CLAC\r" [py!"+CLAC: D,+CUSD,+WIND,+VTS", py!"OK"]).respond py!"AT+WIND?\r" [py!"+WIND: 50", py!"OK"]
    ((connect none f.env {}).1, f.connected.dtmfSupport) = (.ok (), true) := by decide +kernel

-- test_zteConnectSpecifics. There is no `+VTS` in this list: what the test sees is left over from an earlier
-- test (`Call.dtmfSupport` is an attribute of the class).
example :
    let f := zte.respond py!"AT+CLAC\r" [py!"$BREW", py!"$QCSYSMODE", py!"+ZPAS", py!"OK"]
    ((connect none f.env {}).1, f.connected.dtmfSupport, (connect none f.env { dtmfSupport := true }).2.dtmfSupport)
      = (.ok (), false, true) := by decide +kernel

-- test_huaweiConnectSpecifics
example :
    let f := huaweiK3715.respond py!"AT+CLAC\r" [py!"ERROR"]
    ((connect none f.env {}).1, f.connected.dtmfSupport) = (.ok (), true) := by decide +kernel

-- test_smscSpecifiedBeforeConnect
example :
    let s0 : St := (setSmsc (some py!"123454321") generic.env { alive := false }).2
    let r := connect none generic.env s0
    (s0.log, r.1, r.2.log.contains py!"AT+CSCA=\"123454321\"\r", (getSmsc generic.env r.2).1)
      = ([], .ok (), true, .ok (some py!"123454321")) := by decide +kernel

-- test_cpmsNotSupported
example :
    let f := generic.respond py!"AT+CPMS=?\r" [py!"+CMS ERROR: 302"]
    ((connect none f.env {}).1, f.connected.log.contains py!"AT+CPMS=?\r") = (.ok (), true) := by decide +kernel

-- test_cnmiNotSupported
example :
    let f := generic.respond py!"AT+CNMI=2,1,0,2\r" [py!"ERROR"]
    ((connect none f.env {}).1, f.connected.log.contains py!"AT+CNMI=2,1,0,2\r", f.connected.smsReadSupported)
      = (.ok (), true, false) := by decide +kernel

-- test_clipNotSupported
example :
    let f := generic.respond py!"AT+CLIP=1\r" [py!"ERROR"]
    ((connect none f.env {}).1, f.connected.log.contains py!"AT+CLIP=1\r", f.connected.log.contains py!"AT+CRC=1\r",
      f.connected.callingLineIdentification, f.connected.extendedIncomingCallIndication)
      = (.ok (), true, false, false, false) := by decide +kernel

-- test_crcNotSupported
example :
    let f := generic.respond py!"AT+CRC=1\r" [py!"ERROR"]
    ((connect none f.env {}).1, f.connected.log.contains py!"AT+CLIP=1\r", f.connected.log.contains py!"AT+CRC=1\r",
      f.connected.callingLineIdentification, f.connected.extendedIncomingCallIndication)
      = (.ok (), true, true, true, false) := by decide +kernel

/-! ### TestGsmModemPinConnect -/

-- test_connectPinLockedNoPin
example : modems.map (fun f => (connect none { f with pinLock := true }.env {}).1)
    = List.replicate 6 (.error (.command .pinRequired (some 11))) := by decide +kernel

-- test_connectPinLockedWithPin
example : ({ generic with noPin := [py!"AT+CMEE=1\r"] } :: modems).map
    (fun f => (connect (some py!"1234") { f with pinLock := true }.env {}).1) = List.replicate 7 (.ok ()) := by decide +kernel

-- test_connectPin_incorrect, test_connectPin_pukRequired
example : (connect (some py!"1234")
    ({ generic with pinLock := true }.env (byCommand [(py!"AT+CPIN=\"", [py!"+CME ERROR: 16"])])) {}).1
    = .error (.command .incorrectPin (some 16)) := by decide +kernel
example : (connect (some py!"1234")
    ({ generic with pinLock := true }.env (byCommand [(py!"AT+CPIN=\"", [py!"+CME ERROR: 12"])])) {}).1
    = .error (.command .pukRequired (some 12)) := by decide +kernel

-- test_connectPin_timeoutEvents
example : (connect none (generic.env (byCommand [(py!"AT+CPIN?", [])])) {}).1 = .error (.timeout none) := by decide +kernel
example : (connect none (generic.env (byCommand [(py!"AT+CPIN?", [py!"+CPIN: READY"])])) {}).1 = .ok () := by decide +kernel
example : (connect none (generic.env (byCommand [(py!"AT+CPIN?", [py!"FIRST LINE", py!"SECOND LINE"])])) {}).1
    = .error (.timeout (some [py!"FIRST LINE", py!"SECOND LINE"])) := by decide +kernel

end Gsm.Validation
