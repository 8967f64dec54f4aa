import Verif.Spec.Terminal
import Verif.Model.WinTerm
/-! # Specification: the keyboard of Windows -/
namespace Gsm.Spec

/-- A key that is pressed. -/
inductive Stroke
  /-- one that gives a character -/
  | char (c : Nat)
  /-- arrows, Home, End, Delete and others, with the code of the key -/
  | special (code : Nat)
  /-- F1 to F10 -/
  | function (code : Nat)
  deriving DecidableEq

/-- What `getch` gives for it. -/
def Stroke.bytes : Stroke → List Nat
  | .char c => [c]
  | .special code => [0xe0, code]
  | .function code => [0, code]

/-- A character that is not taken for the beginning of a key. -/
def Stroke.Proper : Stroke → Prop
  | .char c => c ≠ 0 ∧ c ≠ 0xe0
  | _ => True

/-- What the console of a POSIX system gives for the same key, if the terminal knows the key on Windows. -/
def Stroke.posix : Stroke → Option PyStr
  | .char c => some [if c = 13 then 10 else c]
  | .special code =>
    if code = 0x48 then some py!"\x1b[A" else if code = 0x50 then some py!"\x1b[B"
    else if code = 0x4d then some py!"\x1b[C" else if code = 0x4b then some py!"\x1b[D" else none
  | .function _ => none

/-- What the console gives for a key. -/
def Stroke.console : Stroke → Option PyStr
  | .char c => some [if c = 13 then 10 else c]
  | .special code => some [0xe0, code]
  | .function _ => none

/-- The screen of Windows. -/
def winScreen (t : Term) : Screen := screenOf (t.out.map winOut)

end Gsm.Spec
