import Verif.Model.Serial
/-! # `SerialComms` from `connect` to `close`: serial_comms.py:25-58, 82-138

The read thread as a thread of its own (`Verif.Model.Serial` has only its effect), the program that calls
`connect`, `close` and `write`, and the serial port, which may be closed.

Simplifications: the program has one thread, and the fatal error callback may call `close` only. A round of the
loop of the read thread after `serial.read` is one step (it is split further in `Verif.Model.SerialFine`).
The port is used only while it is read from or written to (`inWaiting` does not raise). -/
namespace Gsm

/-- Where a read thread is. -/
inductive RPhase
  | top                                      -- before `while self.alive`
  | reading                                  -- in `serial.read`
  | inCallback                               -- in `fatalErrorCallback`
  | ended
  deriving DecidableEq, Repr

structure Reader where
  phase : RPhase := .top
  rxBuffer : PyStr := []
  deriving DecidableEq, Repr

/-- Where the program is. -/
inductive AppPhase
  | idle
  | waiting                                  -- in `write`, for the answer
  | joining                                  -- in `close`, for the read thread
  | shutting                                 -- in `close`, before `serial.close()`
  deriving DecidableEq, Repr

inductive LifeErr
  | attributeError                           -- `self.rxThread`, `self.serial` before `connect`
  | runtimeError                             -- a thread joins itself
  | serialException                          -- the port cannot be opened, or is not open
  deriving DecidableEq, Repr

structure Life where
  /-- The attributes of the object (`rxBuffer` is not used: it is a local variable of the read thread). -/
  comms : Comms := { alive := false }
  /-- The values that `self.serial` had, the present one last: is it open? -/
  ports : List Bool := []
  /-- The values that `self.rxThread` had, the present one last. -/
  readers : List Reader := []
  app : AppPhase := .idle
  /-- Observation: the read threads that called `fatalErrorCallback`, oldest first. -/
  fatal : List Nat := []
  /-- Observation: what the calls raised, oldest first (time-outs are outcomes). -/
  raised : List LifeErr := []

inductive LEvent
  | connect (works : Bool)                   -- the port can be opened or not
  | close                                    -- up to `join`
  | joined                                   -- `join` returns
  | shut                                     -- `serial.close()`, and `close` returns
  | write (expected : Option PyStr)          -- up to `wait`
  | answered                                 -- `wait` returned True
  | expired                                  -- `wait` returned False
  | check (i : Nat)                          -- `while self.alive`
  | got (i c : Nat) (more : Bool)            -- `serial.read` returned a character
  | nothing (i : Nat)                        -- `serial.read` timed out
  | broken (i : Nat)                         -- `serial.read` raised SerialException
  | returned (i : Nat)                       -- `fatalErrorCallback` returned
  | closeWithin (i : Nat)                    -- `fatalErrorCallback` calls `close`
  deriving DecidableEq, Repr

namespace Life

def isOpen (x : Life) : Bool := x.ports.getLast? == some true

def shutPort (x : Life) : List Bool := x.ports.set (x.ports.length - 1) false

/-- `except serial.SerialException`, serial_comms.py:110-118. -/
def fails (x : Life) (i : Nat) (r : Reader) : Life :=
  { x with comms := { x.comms with alive := false }, ports := x.shutPort, fatal := x.fatal ++ [i], readers := x.readers.set i { r with phase := .inCallback } }

/-- `self._response = []`, `self._responseEvent = Event()`, serial_comms.py:123-126. -/
def begins (x : Life) (expected : Option PyStr) : Comms :=
  { x.comms with pending := some ⟨[], false⟩, expect := (expectOf expected).or x.comms.expect }

/-- A round of the loop with a character. -/
def reads (x : Life) (i : Nat) (r : Reader) (c : Nat) (more : Bool) : Life :=
  let s := readChar { x.comms with rxBuffer := r.rxBuffer } c more
  { x with comms := { s with rxBuffer := [] }, readers := x.readers.set i ⟨.top, s.rxBuffer⟩ }

/-- What the program does. -/
def appStep (x : Life) : LEvent → Life
  | .connect works =>
    if x.app ≠ .idle then x
    else if works then { x with comms := { x.comms with alive := true }, ports := x.ports ++ [true], readers := x.readers ++ [{}] }
    else { x with raised := x.raised ++ [.serialException] }
  | .close =>
    if x.app ≠ .idle then x
    else if x.readers = [] then { x with comms := { x.comms with alive := false }, raised := x.raised ++ [.attributeError] }
    else { x with comms := { x.comms with alive := false }, app := .joining }
  | .joined =>
    if x.app = .joining ∧ x.readers.getLast?.map (·.phase) = some .ended then { x with app := .shutting } else x
  | .shut => if x.app = .shutting then { x with ports := x.shutPort, app := .idle } else x
  | .write expected =>
    if x.app ≠ .idle then x
    else if x.isOpen then { x with comms := x.begins expected, app := .waiting }
    else { x with comms := x.begins expected, raised := x.raised ++ [if x.ports = [] then .attributeError else .serialException] }
  | .answered =>
    match x.app, x.comms.pending with
    | .waiting, some ⟨_, true⟩ => { x with comms := sstep x.comms .finish, app := .idle }
    | _, _ => x
  | .expired => if x.app = .waiting then { x with comms := sstep x.comms .expire, app := .idle } else x
  | _ => x

/-- What a read thread does. -/
def readerStep (x : Life) (i : Nat) (r : Reader) : LEvent → Life
  | .check _ => if r.phase = .top then { x with readers := x.readers.set i { r with phase := if x.comms.alive then .reading else .ended } } else x
  | .got _ c more => if r.phase = .reading then (if x.isOpen then x.reads i r c more else x.fails i r) else x
  | .nothing _ => if r.phase = .reading then (if x.isOpen then { x with readers := x.readers.set i { r with phase := .top } } else x.fails i r) else x
  | .broken _ => if r.phase = .reading then x.fails i r else x
  | .returned _ => if r.phase = .inCallback then { x with readers := x.readers.set i { r with phase := .ended } } else x
  | .closeWithin _ =>
    if r.phase = .inCallback ∧ i + 1 = x.readers.length then { x with comms := { x.comms with alive := false }, raised := x.raised ++ [.runtimeError] } else x
  | _ => x

end Life

/-- The read thread that does it, if it is not the program. -/
def LEvent.reader? : LEvent → Option Nat
  | .check i | .got i _ _ | .nothing i | .broken i | .returned i | .closeWithin i => some i
  | _ => none

def lstep (x : Life) (e : LEvent) : Life :=
  match e.reader? with
  | none => x.appStep e
  | some i =>
    match x.readers[i]? with
    | some r => x.readerStep i r e
    | none => x

def lrun (es : List LEvent) (x : Life := {}) : Life := es.foldl lstep x

end Gsm
