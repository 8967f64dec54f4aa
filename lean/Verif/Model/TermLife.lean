import Verif.Model.RawTerm
import Verif.Model.Terminal
/-! # The terminal program from start to end: tools/gsmterm.py:37-46, tools/gsmtermlib/terminal.py:59-168, 243-284, 305-309

The main thread (`main`, `start`), the input thread (`_inputLoop`, `stop`) and the read thread of `SerialComms`, with the
settings of the console. Only what has to do with beginning and ending is here: what a key does else is in
`Verif.Model.RawTerm` and `Verif.Model.Terminal`, what the read thread does else in `Verif.Model.Serial`.

Simplifications: the POSIX console; the steps of `start` after `connect` are one step; the program is not killed. Both
threads are daemons: they end with the main thread. `sys.exitfunc` is called when a program ends on Python 2; Python 3
does not know it. -/
namespace Gsm

/-- What `termios.tcgetattr` gives: the local modes, `VMIN`, `VTIME`, and the rest. -/
structure Tty where
  lflag : Nat
  vmin : Nat
  vtime : Nat
  others : List Nat
  deriving DecidableEq, Repr

/-- The platform's `termios.ICANON`, `termios.ECHO` and `termios.ISIG`. -/
structure TtyModes where
  icanon : Nat
  echo : Nat
  isig : Nat

/-- `n & ~m`. -/
def andNot (n m : Nat) : Nat := n ^^^ (n &&& m)

/-- `Console.setup`, terminal.py:74-80. -/
def setupTty (m : TtyModes) (t : Tty) : Tty :=
  { t with lflag := andNot (andNot (andNot t.lflag m.icanon) m.echo) m.isig, vmin := 1, vtime := 0 }

/-- How the program is run: the raw terminal (`-r`) or not, on Python 3 or 2. -/
structure TermSetup where
  raw : Bool
  py3 : Bool
  modes : TtyModes

/-- What a key comes to. -/
inductive KeyEffect
  | stay
  | exit                                     -- `self.stop()`
  | raises                                   -- an exception ends `_inputLoop`
  deriving DecidableEq, Repr

/-- A round of `_inputLoop` with a piece of input, terminal.py:145-165, 267-281. On Python 3 it is a `bytes` object, which equals no `str`:
the raw terminal writes it to the modem, and then `sys.stdout.write` raises TypeError; the other one tries to insert it if
it is printable, and `''.join` raises TypeError. `fails`: writing to the modem or something else raises an exception. -/
def keyEffect (k : TermSetup) (c : PyStr) (fails : Bool) : KeyEffect :=
  if k.py3 then
    if k.raw then .raises
    else match c with
      | [x] => if Term.isPrintable x then .raises else .stay
      | _ => .stay
  else if c = [29] ∨ (k.raw = false ∧ c = [4]) then .exit
  else if fails then .raises
  else .stay

inductive MainPhase
  | before                                   -- the module is not loaded yet
  | loaded
  | connected                                -- in `start`, after `connect`
  | joining                                  -- in `rxThread.join()`
  | ended (normally : Bool)                  -- and so have the other threads
  deriving DecidableEq, Repr

inductive InputPhase
  | absent
  | top                                      -- before `while self.alive`
  | reading                                  -- in `getkey`
  | closing                                  -- in `close`, for the read thread
  | shutting                                 -- before `serial.close()`
  | ended
  deriving DecidableEq, Repr

inductive ReadPhase
  | absent
  | top
  | reading
  | ended
  deriving DecidableEq, Repr

structure TermLife where
  tty : Tty
  saved : Option Tty := none                 -- `console.old`
  alive : Bool := false
  isOpen : Bool := false
  main : MainPhase := .before
  input : InputPhase := .absent
  reader : ReadPhase := .absent
  /-- Observation: the pieces of input that were handled. -/
  taken : List PyStr := []
  deriving DecidableEq

inductive TermEvent
  | load                                     -- `import`: `console.setup()`
  | connect (works : Bool)
  | start                                    -- the rest of `start`
  | joined                                   -- `join` returns, and the program ends
  | check                                    -- `while self.alive` in the input thread
  | key (c : PyStr) (fails : Bool)           -- `getkey` returns
  | closed                                   -- `join` in `close` returns
  | shut                                     -- `serial.close()`
  | rcheck                                   -- `while self.alive` in the read thread
  | rread                                    -- `serial.read` returned, and the round ends
  | rbroken                                  -- it raised SerialException
  | rraised                                  -- the handling of a notification raised another exception
  deriving DecidableEq, Repr

/-- The program ends: `sys.exitfunc`, terminal.py:98-102. -/
def TermLife.finish (k : TermSetup) (normally : Bool) (x : TermLife) : TermLife :=
  { x with main := .ended normally, tty := if k.py3 then x.tty else x.saved.getD x.tty }

def termStep (k : TermSetup) (x : TermLife) (e : TermEvent) : TermLife :=
  match x.main with
  | .ended _ => x
  | _ =>
    match e with
    | .load => if x.main = .before then { x with saved := some x.tty, tty := setupTty k.modes x.tty, main := .loaded } else x
    | .connect works =>
      if x.main = .loaded then
        if works then { x with alive := true, isOpen := true, reader := .top, main := .connected } else x.finish k false
      else x
    | .start => if x.main = .connected then { x with alive := true, input := .top, main := .joining } else x
    | .joined => if x.main = .joining ∧ x.reader = .ended then x.finish k true else x
    | .check => if x.input = .top then { x with input := if x.alive then .reading else .ended } else x
    | .key c fails =>
      if x.input = .reading then
        let x := { x with taken := x.taken ++ [c] }
        match keyEffect k c fails with
        | .stay => { x with input := .top }
        | .exit => { x with alive := false, input := .closing }
        | .raises => { x with alive := false, input := .ended }
      else x
    | .closed => if x.input = .closing ∧ x.reader = .ended then { x with input := .shutting } else x
    | .shut => if x.input = .shutting then { x with isOpen := false, input := .top } else x
    | .rcheck => if x.reader = .top then { x with reader := if x.alive then .reading else .ended } else x
    | .rread => if x.reader = .reading then { x with reader := .top } else x
    | .rbroken => if x.reader = .reading then { x with alive := false, isOpen := false, reader := .ended } else x
    | .rraised => if x.reader = .reading then { x with reader := .ended } else x

def termRun (k : TermSetup) (es : List TermEvent) (x : TermLife) : TermLife := es.foldl (termStep k) x

end Gsm
