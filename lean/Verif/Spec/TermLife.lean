import Verif.Model.TermLife
/-! # Specification: the terminal program from start to end -/
namespace Gsm.Spec

/-- The local modes without those bits that edit lines, echo and make signals; everything else as it was, and single characters
are read without a time limit. -/
structure Unbuffered (m : TtyModes) (old new : Tty) : Prop where
  cleared : ∀ i, (m.icanon.testBit i ∨ m.echo.testBit i ∨ m.isig.testBit i) → new.lflag.testBit i = false
  kept : ∀ i, ¬ (m.icanon.testBit i ∨ m.echo.testBit i ∨ m.isig.testBit i) → new.lflag.testBit i = old.lflag.testBit i
  vmin : new.vmin = 1
  vtime : new.vtime = 0
  others : new.others = old.others

/-- The program is running: the module is loaded and the program has not ended. -/
def MainPhase.Running : MainPhase → Prop
  | .loaded | .connected | .joining => True
  | _ => False

/-- The program has ended. -/
def MainPhase.Over : MainPhase → Prop
  | .ended _ => True
  | _ => False

/-- Nothing gives a reason for an end: the port can be opened and works, notifications are handled without exceptions, and no key ends the terminal. -/
def NoReason (k : TermSetup) (es : List TermEvent) : Prop :=
  ∀ e ∈ es, e ≠ .connect false ∧ e ≠ .rbroken ∧ e ≠ .rraised ∧ ∀ c fails, e = .key c fails → keyEffect k c fails = .stay

/-- What remains to be done when the program is asked to end: the read thread comes back from the port and looks, and `main` notices. -/
def lastSteps : List TermEvent := [.rread, .rcheck, .joined]

end Gsm.Spec
