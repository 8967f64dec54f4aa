import Verif.Spec.Terminal
/-! # Specification: entering a message in the terminal -/
namespace Gsm.Spec

/-- What the user does while a message is typed. -/
inductive Typing
  | edit (e : Edit) | enter | send | cancel
  deriving DecidableEq

/-- What the modem has got, the line being edited, and whether the message is still being typed. -/
structure Composer where
  got : PyStr
  line : Line
  typing : Bool
  deriving DecidableEq

/-- Enter passes on the text before the cursor, Ctrl-Z all of it and the end mark, ESC the cancel mark. -/
def Composer.step (c : Composer) : Typing → Composer
  | .edit e => { c with line := c.line.edit e }
  | .enter => if c.typing then { c with got := c.got ++ c.line.before, line := ⟨[], c.line.after⟩ } else c
  | .send => if c.typing then ⟨c.got ++ c.line.before ++ c.line.after ++ [26], ⟨[], []⟩, false⟩ else c
  | .cancel => if c.typing then ⟨c.got ++ [27], ⟨[], []⟩, false⟩ else c

def Composer.run (c : Composer) (l : List Typing) : Composer := l.foldl Composer.step c

end Gsm.Spec
