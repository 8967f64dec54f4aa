import Verif.Model.Clock
import Verif.Model.Waiting
/-! # Methods that wait for a notification, with the clock: gsmmodem/modem.py:627-742

The moments are in milliseconds from the call on. What happens by itself comes with a moment: the one at which the thread
that deals with it (the one of a notification, or the one that polls the state of a call) has done so. The list is in the
order of time.

Simplifications: those of `Verif.Model.Clock`; what happens while a command is under way changes the attributes as if it
had happened just after the answer; what happens at the very moment at which the time is over is still noticed; there is
always a time-out (`None` would mean to wait for ever). -/
namespace Gsm

/-- `event.wait(…)` from the moment `now` to the moment `deadline`: whether the event is set, and the moment of the end. -/
def timedAwait (env : Env) (isSet : St → Bool) (deadline : Nat) : List (Nat × Event) → Nat → St → (Bool × St) × Nat
  | [], now, s => if isSet s then ((true, s), now) else ((false, s), max now deadline)
  | (m, e) :: rest, now, s =>
    if isSet s then ((true, s), now)
    else if deadline < m then ((false, s), max now deadline)
    else timedAwait env isSet deadline rest (max now m) (e.run env s).2

/-- `sendUssd(ussdString, responseTimeout)`, modem.py:668-700. -/
def ussdWithin (env : Env) (wait : List PyStr → Nat) (ussdString : PyStr) (timeout : Nat) (arrivals : List (Nat × Event)) (s : St) :
    (Except PyErr (Option Ussd) × St) × Nat :=
  let s := { s with ussdSessionEvent := some false }
  let t := (Prog.write (cusdCmd ussdString)).elapsed env wait s
  match (Prog.write (cusdCmd ussdString)).run env s with
  | (.error e, s) => ((.error e, { s with ussdSessionEvent := none }), t)
  | (.ok cusdResponse, s) =>
    if cusdResponse.length > 1 ∧ lineStartingWith py!"+CUSD" cusdResponse ≠ none then
      (((parseCusdResponse cusdResponse).map some, { s with ussdSessionEvent := none }), t)
    else
      match timedAwait env (fun s => s.ussdSessionEvent = some true) (t + timeout) arrivals t s with
      | ((true, s), t) => ((.ok s.ussdResponse, { s with ussdSessionEvent := none }), t)
      | ((false, s), t) => ((.error (.timeout none), { s with ussdSessionEvent := none }), t)

/-- `dial(number, timeout)`, modem.py:701-742; `timeout` in half seconds, as in `Verif.Model.ModemCalls`. -/
def dialWithin (env : Env) (wait : List PyStr → Nat) (number : PyStr) (timeout : Nat) (hasCallback : Bool) (arrivals : List (Nat × Event)) (s : St) :
    (Except PyErr Nat × St) × Nat :=
  if s.waitForCallInitUpdate then
    let s := { s with dialEvent := some false }
    let t := (Proc.writeAtd number).elapsed env wait s
    match (Proc.writeAtd number).run env s with
    | (.error e, s) => ((.error e, { s with dialEvent := none }), t)
    | (.ok _, s) =>
      let s := if s.mustPollCallStatus then { s with pollers := s.pollers ++ [⟨0, none, if timeout = 0 then 1999998 else timeout, false⟩] } else s
      match timedAwait env (fun s => s.dialEvent = some true) (t + 500 * timeout) arrivals t s with
      | ((true, s), t) =>
        let s := { s with dialEvent := none }
        match s.dialResponse with
        | none => ((.error .typeError, s), t)
        | some (callId, callType) =>
          (registerCall { incoming := false, id := callId, type := some callType, number := some number, callback := hasCallback } env s, t)
      | ((false, s), t) => ((.error (.timeout none), { s with dialEvent := none }), t)
  else
    let t := (Proc.writeAtd number).elapsed env wait s
    match (Proc.writeAtd number).run env s with
    | (.error e, s) => ((.error e, s), t)
    | (.ok _, s) => (registerNext { incoming := false, id := 0, type := some 0, number := some number, callback := hasCallback } env s, t)

/-- What happens in this order, one after the other. -/
def occur (env : Env) : List (Nat × Event) → St → St
  | [], s => s
  | (_, e) :: rest, s => occur env rest (e.run env s).2

/-- `sendSms(…, waitForDeliveryReport=True, deliveryTimeout)`, modem.py:627-666: the event is created when the message has been
sent. -/
def sendWithin [PyUnicode] (env : Env) (wait : List PyStr → Nat) (destination text : PyStr) (sendFlash : Bool) (timeout : Nat) (arrivals : List (Nat × Event))
    (s : St) : (Except PyErr Nat × St) × Nat :=
  let t := (Prog.sendSms destination text sendFlash).elapsed env wait s
  match (Prog.sendSms destination text sendFlash).run env s with
  | (.error e, s) => ((.error e, s), t)
  | (.ok i, s) =>
    let s := { occur env (arrivals.takeWhile fun a => a.1 < t) s with smsStatusReportEvent := some false }
    match timedAwait env (fun s => s.smsStatusReportEvent = some true) (t + timeout) (arrivals.dropWhile fun a => a.1 < t) t s with
    | ((true, s), t) => ((.ok i, { s with smsStatusReportEvent := none }), t)
    | ((false, s), t) => ((.error (.timeout none), { s with smsStatusReportEvent := none }), t)

end Gsm
