import Verif.Model.ThreadCalls
import Verif.Model.Examples
/-! # examples/dial_polling_demo.py, examples/dial_callback_demo.py and examples/ussd_demo.py

The first is one of the threads, in steps as in `Model/ThreadCalls.lean`: the end of the call may be noticed by another thread between any two of them. `time.sleep` is no step. The callback of the
second and the third program are in the model of `Model/ModemCalls.lean`. What the first and the third print is left out. -/
namespace Gsm

namespace Prog

/-- `try: p  finally: f`. -/
def atLast {α : Type} (p : Prog α) (f : Prog Unit) : Prog α :=
  match p with
  | done (.ok a) => f.bind fun _ => done (.ok a)
  | done (.error e) => f.bind fun _ => done (.error e)
  | io t k => io t fun r => (k r).atLast f
  | act g k => act g fun env s => (k env s).atLast f

/-- `call.active`, `call.answered`. -/
def isActive (i : Nat) : Prog Bool := do
  let s ← look
  pure (match s.calls[i]? with | some c => c.active | none => false)
def isAnswered (i : Nat) : Prog Bool := do
  let s ← look
  pure (match s.calls[i]? with | some c => c.answered | none => false)

end Prog

/-- The tones of the examples. -/
def demoTones : PyStr := py!"9515999955951"

/-- `except InterruptedException`, `except CommandError`. -/
def isPlaybackError : PyErr → Bool
  | .interrupted _ | .command .. => true
  | _ => false

namespace Prog

/-- dial_polling_demo.py:48-50. -/
def playTones (i : Nat) : Prog Unit := do
  let a ← isActive i
  if a then sendDtmfTone i demoTones

/-- dial_polling_demo.py:56-60. -/
def hangupIfActive (i : Nat) : Prog Unit := do
  let a ← isActive i
  if a then hangup i

/-- dial_polling_demo.py:48-60. -/
def playAndHangup (i : Nat) : Prog Unit := atLast (except (playTones i) isPlaybackError fun _ => pure ()) (hangupIfActive i)

/-- `while call.active`, dial_polling_demo.py:41-63. At most so many times; if they do not suffice the model gives up with an error. -/
def dialLoop (i : Nat) : Nat → Prog Unit
  | 0 => raise .recursionError
  | n + 1 => do
    let a ← isActive i
    if a then do
      let b ← isAnswered i
      if b then playAndHangup i
      dialLoop i n

end Prog

/-- What the callback of dial_callback_demo.py prints. -/
inductive Notice
  | called           -- 'Call status update callback function called'
  | answered         -- 'Call has been answered; waiting a while...'
  | playing          -- 'Playing DTMF tones...'
  | interrupted      -- 'DTMF playback interrupted: …'
  | failed           -- 'DTMF playback failed: …'
  | hangingUp        -- 'Hanging up call...'
  | ended            -- 'Call has been ended by remote party'
  deriving DecidableEq, Repr

/-- What has become of a call of the callback: what was printed, whether `waitForCallback` is still `True`, and how it ended. -/
structure Called where
  printed : List Notice
  waiting : Bool
  result : Except PyErr Unit
  after : St

open M

/-- `callStatusCallback` for a call that is not answered, dial_callback_demo.py:29-30, 48-51. -/
def endedNotices : List Notice := [.called, .ended]

/-- dial_callback_demo.py:36-43: what is printed, and the exception that goes on to `finally`. -/
def playback : Except PyErr Unit → List Notice × Except PyErr Unit
  | .ok _ => ([], .ok ())
  | .error (.interrupted _) => ([.interrupted], .ok ())
  | .error (.command ..) => ([.failed], .ok ())
  | .error e => ([], .error e)

/-- `if call.active: call.sendDtmfTone(…)`, dial_callback_demo.py:37-38. -/
def tonesIfActive (i : Nat) : M Unit := do
  let s ← get
  match s.calls[i]? with
  | some c => if c.active then sendDtmfTone i demoTones else pure ()
  | none => pure ()

/-- `callStatusCallback`, dial_callback_demo.py:27-51, as the callback of the call; `during` happens while it sleeps. `hangup` assigns `answered`, which calls the callback for the second time (modem.py:1233-1238). -/
def statusCallback (i : Nat) (during : List Event) (env : Env) (s : St) : Called :=
  match s.calls[i]? with
  | none => ⟨[], true, .ok (), s⟩
  | some c =>
    if c.answered then
      let s1 := (sleep during env s).2
      let (r, s2) := tonesIfActive i env s1
      let printed := [.called, .answered, .playing] ++ (playback r).1
      match s2.calls[i]? with
      | none => ⟨printed, false, (playback r).2, s2⟩
      | some c2 =>
        if c2.active then
          match hangup i env s2 with
          | (.ok _, s3) => ⟨printed ++ [.hangingUp] ++ endedNotices, false, (playback r).2, s3⟩
          | (.error e, s3) => ⟨printed ++ [.hangingUp], true, .error e, s3⟩
        else ⟨printed, false, (playback r).2, s2⟩
    else ⟨endedNotices, false, .ok (), s⟩

/-- ussd_demo.py:26-37. If there is no result, `response.message` raises an `AttributeError`. -/
def ussdDemo (during : List Event) : M Unit := do
  let r ← sendUssd py!"*101#" during
  match r with
  | none => raise .attributeError
  | some u => u.cancel

end Gsm
