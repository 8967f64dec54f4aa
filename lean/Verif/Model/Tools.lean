import Verif.Model.ModemCalls
/-! # The command line tools: tools/sendsms.py and tools/identify-modem.py

Simplifications: reading the command line is in Model/CommandLine.lean, so that `main` begins with its
result; what is printed before the modem is opened is left out; what is typed has ASCII characters only
(`raw_input` belongs to Python 2, where it gives bytes). The program ends with a status, with an exception
that nobody catches, or with the `EOFError` of `raw_input`. -/
namespace Gsm
open M

inductive Exit
  | status (n : Nat)
  | raised (e : PyErr)
  | noInput
  deriving DecidableEq

/-- How a run ended, with what was written to the two outputs, in order. The port is open as long as
`st.alive` (`connect` opens it, `close` closes it, serial_comms.py:45-58). -/
structure Ended where
  exit : Exit
  st : St
  out : List PyStr
  err : List PyStr
  deriving DecidableEq

/-- `except PinRequiredError` and `except IncorrectPinError`, sendsms.py:54-59, identify-modem.py:50-55. -/
def pinComplaint : PyErr → Option PyStr
  | .command .pinRequired _ => some py!"Error: SIM card PIN required. Please specify a PIN with the -p argument.\n"
  | .command .incorrectPin _ => some py!"Error: Incorrect SIM card PIN entered.\n"
  | _ => none

/-- `modem.close()`. -/
def closed (s : St) : St := { s with alive := false }

/-! ### sendsms.py -/

/-- The arguments, what is typed, and what happens by itself: while the message is typed, and before and
during the wait for a delivery report. `rounds`: how often the network is asked for in five seconds. -/
structure SendArgs where
  port : Option PyStr
  pin : Option PyStr
  deliver : Bool
  destination : PyStr
  typed : Option PyStr
  rounds : Nat
  meanwhile : List Event
  early : List Event
  during : List Event

/-- sendsms.py:82-85. -/
def sentNote (x : Sent) : PyStr :=
  match x.report with
  | some _ => py!"Message sent" ++ (if x.status = 1 then py!" and delivered OK." else py!", but delivery failed.")
  | none => py!"Message sent."

/-- `modem.sendSms(args.destination, text, waitForDeliveryReport=args.deliver)`. -/
def toolSend [PyUnicode] (a : SendArgs) (text : PyStr) : M Nat :=
  if a.deliver then sendSmsWait a.destination text false a.early a.during else sendSms a.destination text

/-- sendsms.py:74-85. -/
def sendsmsSend [PyUnicode] (env : Env) (a : SendArgs) (text : PyStr) (s : St) (out : List PyStr) : Ended :=
  match toolSend a text env s with
  | (.ok i, s) =>
    match s.sent[i]? with
    | some x => ⟨.status 0, closed s, out ++ [sentNote x], []⟩
    | none => ⟨.raised .indexError, s, out, []⟩                -- there is such an object
  | (.error (.timeout _), s) => ⟨.status 1, closed s, out ++ [py!"Failed to send message: the send operation timed out"], []⟩
  | (.error e, s) => ⟨.raised e, s, out, []⟩

/-- sendsms.py:67-73: typing the message. -/
def sendsmsType [PyUnicode] (env : Env) (a : SendArgs) (s : St) (out : List PyStr) : Ended :=
  let s := (awaitEvent (fun _ => false) a.meanwhile env s).2
  match a.typed with
  | none => ⟨.noInput, s, out ++ [py!"\nPlease type your message and press enter to send it:"], []⟩
  | some text =>
    sendsmsSend env a text s (out ++ [py!"\nPlease type your message and press enter to send it:",
      if a.deliver then py!"\nSending SMS and waiting for delivery report..." else py!"\nSending SMS message..."])

/-- sendsms.py:60-66. -/
def sendsmsCoverage [PyUnicode] (env : Env) (a : SendArgs) (s : St) : Ended :=
  match waitForNetworkCoverage a.rounds env s with
  | (.ok _, s) => sendsmsType env a s [py!"Checking for network coverage..."]
  | (.error (.timeout _), s) =>
    ⟨.status 1, closed s, [py!"Checking for network coverage...",
      py!"Network signal strength is not sufficient, please adjust modem position/antenna and try again."], []⟩
  | (.error e, s) => ⟨.raised e, s, [py!"Checking for network coverage..."], []⟩

/-- `main` of sendsms.py, 44-85; the state is that of a new `GsmModem`. -/
def sendsms [PyUnicode] (env : Env) (a : SendArgs) (s : St) : Ended :=
  match a.port with
  | none => ⟨.status 1, s, [], [py!"Error: No port specified. Please specify the port to which the GSM modem is connected using the -i argument.\n"]⟩
  | some _ =>
    match connect a.pin env s with
    | (.ok (), s) => sendsmsCoverage env a s
    | (.error e, s) =>
      match pinComplaint e with
      | some c => ⟨.status 1, s, [], [c]⟩
      | none => ⟨.raised e, s, [], []⟩

/-! ### identify-modem.py -/

/-- A value that is printed. -/
inductive Printed
  | lines (ls : List PyStr)
  | text (s : PyStr)
  | number (n : Int)
  | none
  deriving DecidableEq

/-- `print(label, value)` for each of them, until one raises an exception. -/
def showAll : List (PyStr × M Printed) → Env → St → Option PyErr × List (PyStr × Printed) × St
  | [], _, s => (none, [], s)
  | (label, m) :: items, env, s =>
    match m env s with
    | (.error e, s) => (some e, [], s)
    | (.ok v, s) =>
      let (e, shown, s) := showAll items env s
      (e, (label, v) :: shown, s)

/-- `modem.write(command, parseError=False)`. -/
def rawAnswer (command : PyStr) : M Printed := do return .lines (← write command false)

/-- identify-modem.py:58-73. -/
def debugItems : List (PyStr × M Printed) :=
  [(py!"ATI", rawAnswer py!"ATI"), (py!"AT+CGMI:", rawAnswer py!"AT+CGMI"), (py!"AT+CGMM:", rawAnswer py!"AT+CGMM"),
   (py!"AT+CGMR:", rawAnswer py!"AT+CGMR"), (py!"AT+CFUN=?:", rawAnswer py!"AT+CFUN=?"), (py!"AT+WIND=?:", rawAnswer py!"AT+WIND=?"),
   (py!"AT+WIND?:", rawAnswer py!"AT+WIND?"), (py!"AT+CPMS=?:", rawAnswer py!"AT+CPMS=?"), (py!"AT+CNMI=?:", rawAnswer py!"AT+CNMI=?"),
   (py!"AT+CVHU=?:", rawAnswer py!"AT+CVHU=?"), (py!"AT+CSMP?:", rawAnswer py!"AT+CSMP?"), (py!"AT+GCAP:", rawAnswer py!"AT+GCAP"),
   (py!"AT+CPIN?", rawAnswer py!"AT+CPIN?"), (py!"AT+CLAC:", rawAnswer py!"AT+CLAC")]

/-- `x if x != None else 'N/A'`, where `x` is a property: it is asked for once more if it is not `None`. -/
def orNA (m : M (Option PyStr)) : M Printed := do
  let a ← m
  if a ≠ none then
    let b ← m
    pure (match b with | some v => .text v | none => .none)
  else pure (.text py!"N/A")

/-- `print` of a string or `None`. -/
def orNone (m : M (Option PyStr)) : M Printed := do
  let a ← m
  pure (match a with | some v => .text v | none => .none)

/-- A property that is never `None`. -/
def always (m : M PyStr) : M (Option PyStr) := do return some (← m)

/-- identify-modem.py:77-83. -/
def infoItems : List (PyStr × M Printed) :=
  [(py!"Manufacturer:", orNone (always manufacturer)), (py!"Model:", orNone (always model)), (py!"Revision:", orNA revision),
   (py!"\nIMEI:", orNA (always imei)), (py!"IMSI:", orNA (always imsi)), (py!"\nNetwork:", orNone networkName),
   (py!"Signal strength:", do return .number (← signalStrength))]

/-- How a run of identify-modem.py ended. -/
structure Identified where
  exit : Exit
  st : St
  shown : List (PyStr × Printed)
  err : List PyStr
  deriving DecidableEq

/-- `main` of identify-modem.py, 45-84. -/
def identify (env : Env) (pin : Option PyStr) (debug : Bool) (s : St) : Identified :=
  match connect pin env s with
  | (.ok (), s) =>
    match showAll (if debug then debugItems else infoItems) env s with
    | (none, shown, s) => ⟨.status 0, s, shown, []⟩
    | (some e, shown, s) => ⟨.raised e, s, shown, []⟩
  | (.error e, s) =>
    match pinComplaint e with
    | some c => ⟨.status 1, s, [], [c]⟩
    | none => ⟨.raised e, s, [], []⟩

end Gsm
