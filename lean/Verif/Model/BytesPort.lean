import Verif.Model.Serial
/-! # The values that the serial port gives: serial_comms.py:83-141

`Verif.Model.Serial` has the characters that arrive. What `serial.read(1)` returns is a `str` on Python 2, and `bytes` on
Python 3; a timeout is an empty one. A `bytes` object is never equal to a `str` object on Python 3, and `''.join` raises
TypeError for it. So does `serial.write` for a `str` if the port is one for `bytes` (pyserial: `to_bytes`). -/
namespace Gsm

/-- A value that `serial.read` returns. -/
inductive Piece
  | str (s : PyStr)
  | bytes (b : List Nat)
  deriving DecidableEq, Repr

/-- `''.join(pieces)`. -/
def joinStr : List Piece → Except PyErr PyStr
  | [] => .ok []
  | .str s :: l => do
    let t ← joinStr l
    return s ++ t
  | .bytes _ :: _ => .error .typeError

/-- `pieces[-n:] == list(seq)` with `n = len(seq)`. -/
def endsIn (pieces : List Piece) (seq : PyStr) : Bool := pieces.drop (pieces.length - seq.length) == seq.map fun c => .str [c]

/-- The object, with the read thread's `rxBuffer` (that of `comms` is not used), the exception that ended this thread
and those that left `write`. -/
structure PortLoop where
  comms : Comms := {}
  buffer : List Piece := []
  raised : Option PyErr := none
  writeErrors : List PyErr := []

/-- `''.join` and `_handleLineRead`, serial_comms.py:97-102, 105-107. -/
def PortLoop.line (x : PortLoop) (pieces : List Piece) (check more : Bool) : PortLoop :=
  match joinStr pieces with
  | .error e => { x with raised := some e }
  | .ok line =>
    let x := { x with buffer := [] }
    if check && line.length == 0 then x else { x with comms := handleLineRead x.comms line check more }

/-- A round of the loop, serial_comms.py:92-108. -/
def PortLoop.round (x : PortLoop) (data : Piece) (more : Bool) : PortLoop :=
  if data = .str [] then x
  else
    let x := { x with buffer := x.buffer ++ [data] }
    if endsIn x.buffer [13, 10] then x.line (x.buffer.take (x.buffer.length - 2)) true more
    else
      match x.comms.expect with
      | some seq => if endsIn x.buffer seq then x.line x.buffer false more else x
      | none => x

inductive PortEvent
  | read (data : Piece) (more : Bool)        -- `serial.read` returns
  | write (expected : Option PyStr)          -- `write` with a `str`, up to `wait`
  | finish                                   -- `wait` returned True
  | expire                                   -- `wait` returned False
  | fail                                     -- `serial.read` raises SerialException
  deriving DecidableEq, Repr

/-- One event at a port for `bytes` or for `str`. -/
def portStep (bytes : Bool) (x : PortLoop) : PortEvent → PortLoop
  | .read data more => if x.comms.alive ∧ x.raised = none then x.round data more else x
  | .write expected =>
    if bytes then
      { x with comms := { x.comms with pending := some ⟨[], false⟩, expect := (expectOf expected).or x.comms.expect }, writeErrors := x.writeErrors ++ [.typeError] }
    else { x with comms := sstep x.comms (.start expected) }
  | .finish => if bytes then x else { x with comms := sstep x.comms .finish }
  | .expire => if bytes then x else { x with comms := sstep x.comms .expire }
  | .fail => if x.raised = none then { x with comms := sstep x.comms .fail } else x

def portRun (bytes : Bool) (es : List PortEvent) (x : PortLoop := {}) : PortLoop := es.foldl (portStep bytes) x

end Gsm
