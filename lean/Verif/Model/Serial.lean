import Verif.Model.Regex
/-! # Serial communication: gsmmodem/serial_comms.py

The reader thread (`_readLoop`, `_handleLineRead`) and the thread inside `write` are modelled as an
event machine. Atomic steps: the handling of one received character by the reader (with the line it
may complete); the beginning of `write` up to `serial.write`; the end of `write` (from the return of
`Event.wait` to the return or raise). `write` calls exclude each other (`_txLock`), so there is at
most one pending command. A `write` that times out may do so although the response was completed at
the last moment, so `expire` is possible whenever a command is pending. The notification callback
only starts a thread and is modelled by recording its argument. -/
namespace Gsm

/-- Matching at the start of `^OK|ERROR|(\+CM[ES] ERROR: \d+)|(COMMAND NOT SUPPORT)$`:
the `^` belongs to the first and the `$` to the last alternative only; serial_comms.py:21. -/
def isResponseTerm (line : PyStr) : Bool :=
  rxMatches (rxLit py!"OK") line || rxMatches (rxLit py!"ERROR") line ||
  rxMatches (rxLit py!"+CM" ++ .ch (fun c => decide (c = 69 ∨ c = 83)) :: rxLit py!" ERROR: " ++ [rxPlus isD]) line ||
  rxMatches (rxLit py!"COMMAND NOT SUPPORT" ++ [.eol]) line

/-- What a call of `write` (with `waitForResponse`) came to. -/
inductive Outcome
  | returned (lines : List PyStr)
  | timeout (data : Option (List PyStr))
  deriving DecidableEq, Repr

/-- The response being collected: `_response` and whether `_responseEvent` is set. -/
structure Pending where
  response : List PyStr
  isSet : Bool
  deriving DecidableEq, Repr

/-- `SerialComms`, serial_comms.py:26-42, with the reader's local `rxBuffer`. -/
structure Comms where
  alive : Bool := true
  rxBuffer : PyStr := []
  pending : Option Pending := none           -- `_responseEvent` (None when absent) and `_response`
  expect : Option PyStr := none              -- `_expectResponseTermSeq`; none stands for None/False/[]
  notification : List PyStr := []
  /-- Observation: what the `write` calls came to, oldest first. -/
  outcomes : List Outcome := []
  /-- Observation: arguments of the notification callback, oldest first. -/
  notified : List (List PyStr) := []
  /-- Observation: lines passed to `_handleLineRead`, oldest first. -/
  handed : List PyStr := []
  deriving Repr

/-- `_handleLineRead`, serial_comms.py:59-78. `more`: `inWaiting() != 0`. -/
def handleLineRead (s : Comms) (line : PyStr) (checkForResponseTerm more : Bool) : Comms :=
  let s := { s with handed := s.handed ++ [line] }
  match s.pending with
  | some ⟨response, false⟩ =>
    { s with pending := some ⟨response ++ [line], !checkForResponseTerm || isResponseTerm line⟩ }
  | _ =>
    let notification := s.notification ++ [line]
    if more then { s with notification := notification }
    else { s with notified := s.notified ++ [notification], notification := [] }

/-- `xs[-n:] == seq` with `n = len(seq)`. -/
def endsWith (xs seq : PyStr) : Bool := xs.drop (xs.length - seq.length) == seq

/-- One round of `_readLoop` with a character, serial_comms.py:92-108. -/
def readChar (s : Comms) (c : Nat) (more : Bool) : Comms :=
  let rxBuffer := s.rxBuffer ++ [c]
  if endsWith rxBuffer [13, 10] then
    let line := rxBuffer.take (rxBuffer.length - 2)
    let s := { s with rxBuffer := [] }
    if line.length > 0 then handleLineRead s line true more else s
  else
    match s.expect with
    | some seq =>
      if endsWith rxBuffer seq then handleLineRead { s with rxBuffer := [] } rxBuffer false more
      else { s with rxBuffer := rxBuffer }
    | none => { s with rxBuffer := rxBuffer }

inductive SEvent
  | rx (c : Nat) (more : Bool)               -- a character arrives; more are waiting or not
  | start (expected : Option PyStr)          -- `write` up to `serial.write`, serial_comms.py:121-126
  | finish                                   -- `wait` returned True, serial_comms.py:127-130
  | expire                                   -- `wait` returned False, serial_comms.py:131-138
  | fail                                     -- `serial.read` raises SerialException, serial_comms.py:109-117
  deriving DecidableEq, Repr

/-- `list(expectedResponseTermSeq)` when it is neither None nor empty. -/
def expectOf : Option PyStr → Option PyStr
  | some (c :: s) => some (c :: s)
  | _ => none

/-- One event. Events that are impossible in the state (`finish` without a set event, ...) change
nothing. -/
def sstep (s : Comms) : SEvent → Comms
  | .rx c more => if s.alive then readChar s c more else s
  | .start expected =>
    match s.pending with
    | some _ => s
    | none => { s with pending := some ⟨[], false⟩, expect := (expectOf expected).or s.expect }
  | .finish =>
    match s.pending with
    | some ⟨response, true⟩ =>
      { s with pending := none, expect := none, outcomes := s.outcomes ++ [.returned response] }
    | _ => s
  | .expire =>
    match s.pending with
    | some ⟨response, _⟩ =>
      { s with pending := none, expect := none,
               outcomes := s.outcomes ++ [.timeout (if response.length > 0 then some response else none)] }
    | none => s
  | .fail => { s with alive := false }

/-- A run from the state after `connect`. -/
def srun (es : List SEvent) (s : Comms := {}) : Comms := es.foldl sstep s

end Gsm
