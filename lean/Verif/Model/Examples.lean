import Verif.Model.ModemSms
import Verif.Model.ModemCalls
/-! # examples/sms_handler_demo.py and examples/incoming_call_demo.py

What they print is left out. A callback runs in the thread that has called it; that this thread has the callback to run is seen from the record of the callbacks. -/
namespace Gsm
open M

/-- `try: m  finally: f`. -/
def M.atLast {α : Type} (m : M α) (f : M Unit) : M α := fun env s =>
  match m env s with
  | (r, s) =>
    match f env s with
    | (.ok _, s) => (r, s)
    | (.error e, s) => (.error e, s)

/-- `u'SMS received: "{0}{1}"'.format(sms.text[:20], '...' if len(sms.text) > 20 else '')`, sms_handler_demo.py:23. -/
def replyText (text : PyStr) : PyStr := py!"SMS received: \"" ++ text.take 20 ++ (if text.length > 20 then py!"..." else []) ++ py!"\""

/-- `handleSms`, sms_handler_demo.py:20-24, with `ReceivedSms.reply`, modem.py:58-60. A status report has no `time`; a message without number has `None` for it, which has no `isalnum` (the program uses PDU mode). -/
def handleSms [PyUnicode] : Msg → M Unit
  | .received _ (some number) _ text _ => do let _ ← sendSms number (replyText text)
  | .received _ none _ _ _ => raise .attributeError
  | .report .. => raise .attributeError

/-- A thread of sms_handler_demo.py that handles a notification about a message. -/
def smsDemo [PyUnicode] (line : PyStr) : M Unit := do
  let before ← get
  handleSmsReceived line
  let after ← get
  match after.callbacks.take (after.callbacks.length - before.callbacks.length) with
  | [.smsReceived m] => handleSms m
  | _ => pure ()

/-- `except InterruptedException`. -/
def isInterrupted : PyErr → Bool
  | .interrupted _ => true
  | _ => false

/-- `if call.answered: call.hangup()`, incoming_call_demo.py:38-40. -/
def hangupAnswered (i : Nat) : M Unit := do
  let s ← get
  match s.calls[i]? with
  | some c => if c.answered then hangup i else pure ()
  | none => pure ()

/-- `time.sleep`: meanwhile this happens in other threads. -/
def sleep : List Event → M Unit
  | [] => pure ()
  | e :: es => do
    e.run
    sleep es

/-- `handleIncomingCall`, incoming_call_demo.py:23-45. -/
def incomingDemo (i : Nat) (during : List Event) : M Unit := do
  let s ← get
  match s.calls[i]? with
  | none => pure ()
  | some c =>
    if c.ringCount = 1 then pure ()
    else if c.ringCount ≥ 2 then
      if s.dtmfSupport then do
        answer i
        sleep during
        M.atLast (except (sendDtmfTone i py!"9515999955951") isInterrupted (fun _ => pure ())) (hangupAnswered i)
      else hangup i
    else pure ()

end Gsm
