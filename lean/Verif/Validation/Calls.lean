import Verif.Validation.Modem
/-!
# The model of calls on the repository's own tests

These are checks of the model's fidelity (test/test_modem.py, TestGsmModemDial, TestIncomingCall and TestCall),
not proofs of properties.
-/
namespace Gsm.Validation

set_option synthInstance.maxHeartbeats 200000
set_option synthInstance.maxSize 1000

/-- How a simulated modem tells the progress of an outgoing call: notifications, or answers to `AT+CLCC`. -/
structure Progress where
  started : List (List PyStr) := []
  taken : List (List PyStr) := []
  hungUp : List (List PyStr) := []
  rejected : List (List PyStr) := []

/-- The answers to `AT+CLCC` at the three stages of a call. -/
def clccStarted : List PyStr := [py!"+CLCC: 1,0,2,0,0,\"0123456789\",129", py!"OK"]
def clccTaken : List PyStr := [py!"+CLCC: 1,0,0,0,0,\"0123456789\",129", py!"OK"]

/-- The modem when it answers `AT+CLCC` like this. -/
def atStage (f : Fake) (clcc : List PyStr) : Env := f.env (byCommand [(py!"AT+CLCC", clcc)])

/-- The notifications, and a round of every polling thread. -/
def happen (notes : List (List PyStr)) : List Event := notes.map .notify ++ [.poll 0, .poll 1, .poll 2]

def happens (f : Fake) (clcc : List PyStr) (notes : List (List PyStr)) (s : St) : St :=
  (happen notes).foldl (fun s e => (e.run (atStage f clcc) s).2) s

/-- Result of `dial`, whether it is active and answered, and the number of active calls. -/
def view (s : St) (i : Nat) : Option (Bool × Bool) × Nat := ((s.calls[i]?).map fun c => (c.active, c.answered), s.activeCalls.length)

/-- test_dial: a call that is answered and then ended here, one that is answered and ended by the other side, one
that is rejected; what is seen after each step, and the commands other than the polling ones. -/
def dialTest (f : Fake) (p : Progress) : List (Option (Bool × Bool) × Nat) × List PyStr :=
  let number := py!"0123456789"
  let call (s : St) : St := (dial number 20 false (happen p.started) (atStage f clccStarted) s).2
  let a0 := f.connected
  let a1 := call a0
  let a2 := happens f clccTaken p.taken a1
  let a3 := (hangup 0 (atStage f clccTaken) a2).2
  let b1 := call a3
  let b2 := happens f clccTaken p.taken b1
  let b3 := happens f ok p.hungUp b2
  let c1 := call b3
  let c2 := happens f ok p.rejected c1
  ([view a1 0, view a2 0, view a3 0, view b1 1, view b2 1, view b3 1, view c1 2, view c2 2],
    (written a0 c2).filter fun c => c ≠ py!"AT+CLCC\r")

def dialExpected : List (Option (Bool × Bool) × Nat) × List PyStr :=
  ([(some (true, false), 1), (some (true, true), 1), (some (false, false), 0),
    (some (true, false), 1), (some (true, true), 1), (some (false, false), 0),
    (some (true, false), 1), (some (false, false), 0)],
   [py!"ATD0123456789;\r", py!"ATH\r", py!"ATD0123456789;\r", py!"ATD0123456789;\r"])

def huaweiProgress : Progress :=
  ⟨[[py!"^ORIG:1,0"], [py!"^CONF:1"]], [[py!"^CONN:1,0"]], [[py!"^CEND:1,5,29,16"]], [[py!"^CEND:1,5,29,16"]]⟩
def wavecomProgress : Progress :=
  ⟨[[py!"+WIND: 5,1", py!"+WIND: 2"]], [[py!"OK"]], [[py!"NO CARRIER", py!"+WIND: 6,1"]], [[py!"NO CARRIER", py!"+WIND: 6,1"]]⟩

example : dialTest huaweiK3715 huaweiProgress = dialExpected := by decide +kernel
example : dialTest huaweiE1752 huaweiProgress = dialExpected := by decide +kernel
example : dialTest wavecom wavecomProgress = dialExpected := by decide +kernel
example : dialTest qualcomm ⟨[], [[py!"CONNECT"]], [[py!"HANGUP: 1"]], [[py!"HANGUP: 1"]]⟩ = dialExpected := by decide +kernel
example : dialTest zte ⟨[], [[py!"CONNECT"]], [[py!"HANGUP: 1"]], [[py!"OK"]]⟩ = dialExpected := by decide +kernel
example : dialTest nokia {} = dialExpected := by decide +kernel
example : dialTest generic {} = dialExpected := by decide +kernel

-- test_dialError
def k : St := huaweiK3715.connected
def askK {α : Type} (m : M α) (answers : List (List PyStr)) : Except PyErr α := (m (huaweiK3715.env (after k answers)) k).1

example : askK (dial py!"123" 20 false []) [[py!"+CME ERROR: 30"]] = .error (.command .cme (some 30)) := by decide +kernel
example : askK (dial py!"123" 20 false []) [[py!"+CMS ERROR: 500"]] = .error (.command .cms (some 500)) := by decide +kernel
example : askK (dial py!"123" 20 false []) [[py!"ERROR"]] = .error (.command .command none) := by decide +kernel

-- test_dial_callInitEventTimeout, test_dial_atdTimeout
example : askK (dial py!"123" 20 false []) [ok] = .error (.timeout none) := by decide +kernel
example : (ask (dial py!"123" 20 false []) [[]]).1 = .error (.timeout none) := by decide +kernel

/-! ### TestIncomingCall -/

/-- test_incomingCallAnswer: the call as the callback sees it, after `answer()` (twice) and after `hangup()` (twice),
and what was written. -/
def incomingTest (f : Fake) (clip : PyStr) : List (Option (Option PyStr × Option Int × Bool) × Nat) × List Callback × List PyStr :=
  let s0 := f.connected
  let look (s : St) := ((s.calls[0]?).map fun c => (c.number, c.type, c.answered), s.activeCalls.length)
  let s1 := (Event.run (.notify [py!"+CRING: VOICE", clip]) f.env s0).2
  let s2 := (answer 0 f.env s1).2
  let s3 := (answer 0 f.env s2).2
  let s4 := (hangup 0 f.env s3).2
  let s5 := (hangup 0 f.env s4).2
  ([look s1, look s2, look s3, look s4, look s5], s5.callbacks, written s0 s5)

def incomingExpected : List (Option (Option PyStr × Option Int × Bool) × Nat) × List Callback × List PyStr :=
  ([(some (some py!"+27820001234", some 0, false), 1), (some (some py!"+27820001234", some 0, true), 1),
    (some (some py!"+27820001234", some 0, true), 1), (some (some py!"+27820001234", some 0, false), 0),
    (some (some py!"+27820001234", some 0, false), 0)], [.incomingCall 0], [py!"ATA\r", py!"ATH\r"])

example : [huaweiK3715, huaweiE1752, qualcomm, zte, nokia, generic].map (incomingTest · py!"+CLIP: \"+27820001234\",145,,,,0")
    = List.replicate 6 incomingExpected := by decide +kernel
example : incomingTest wavecom py!"+CLIP: \"+27820001234\",145" = incomingExpected := by decide +kernel

def ring : Event := .notify [py!"RING", py!"+CLIP: \"+27821231234\",145,,,,0"]

-- test_incomingCallCrcNotSupported
example :
    let f := (generic.respond py!"AT+CRC?\r" [py!"ERROR"]).respond py!"AT+CRC=1\r" [py!"ERROR"]
    let s := (ring.run f.env f.connected).2
    (f.connected.extendedIncomingCallIndication, s.extendedIncomingCallIndication, s.callbacks, s.calls.map (·.type))
      = (false, false, [.incomingCall 0], [none]) := by decide +kernel

-- test_incomingCallCrcChangedExternally (the three calls are one, as they have the same number)
example :
    let s1 := (Event.run (.notify [py!"+CRING: VOICE", py!"+CLIP: \"+27821231234\",145,,,,0"]) generic.env g).2
    let s2 := (ring.run generic.env s1).2
    let s3 := (ring.run (generic.env (after s2 [[py!"ERROR"]])) s2).2
    (g.extendedIncomingCallIndication, s2.extendedIncomingCallIndication, s3.extendedIncomingCallIndication,
      s1.callbacks, s2.callbacks.length, s3.callbacks.length, written s1 s3)
      = (true, true, false, [.incomingCall 0], 2, 3, [py!"AT+CRC=1\r", py!"AT+CRC=1\r"]) := by decide +kernel

/-! ### TestCall -/

/-- `Call(self.modem, 1, 1, '+270000000')`, answered. -/
def withCall (s : St) (callback : Bool := false) : St :=
  { s with calls := [{ incoming := false, id := 1, type := some 1, number := some py!"+270000000", answered := true, callback := callback }] }

/-- testDtmf: what is written for the three strings of tones, and the outcome once the call has ended. -/
def dtmfTest (f : Fake) : List PyStr × Except PyErr Unit :=
  let s0 := withCall f.connected
  let s1 := ([py!"3", py!"1234", py!"#0*"].foldl (fun s t => (sendDtmfTone 0 t f.env s).2) s0)
  let s2 := (hangup 0 f.env s1).2
  (written s0 s1, (sendDtmfTone 0 py!"1" f.env s2).1)

example : [huaweiK3715, huaweiE1752].map dtmfTest = List.replicate 2
    ([py!"AT^DTMF=1,3\r", py!"AT^DTMF=1,1;^DTMF=1,2;^DTMF=1,3;^DTMF=1,4\r", py!"AT^DTMF=1,#;^DTMF=1,0;^DTMF=1,*\r"],
      .error .invalidState) := by decide +kernel
example : [wavecom, qualcomm, zte, nokia].map dtmfTest = List.replicate 4
    ([py!"AT+VTS=3\r", py!"AT+VTS=1;+VTS=2;+VTS=3;+VTS=4\r", py!"AT+VTS=#;+VTS=0;+VTS=*\r"], .error .invalidState) := by
  decide +kernel

-- testDtmfInterrupted
example : (ask (sendDtmfTone 0 py!"5") [[py!"+CME ERROR: 30"]] (withCall g)).1 = .error (.interrupted 30) := by decide +kernel
example : (ask (sendDtmfTone 0 py!"5") [[py!"+CME ERROR: 3"]] (withCall g)).1 = .error (.interrupted 3) := by decide +kernel
example : (ask (sendDtmfTone 0 py!"5") [[py!"+CME ERROR: 1234"]] (withCall g)).1 = .error (.command .cme (some 1234)) := by
  decide +kernel

-- testCallAnsweredCallback
example : (ask (setAnswered 0 true) [] (withCall g true)).2.callbacks = [.callStatus 0] := by decide +kernel

end Gsm.Validation
