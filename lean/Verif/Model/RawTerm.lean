import Verif.Model.Py
/-! # The raw terminal: class RawTerm of tools/gsmtermlib/terminal.py

As the terminal, on Python 2 and the POSIX console. `os.read(fd, 4)` gives between one and four of the
characters waiting, so that what is typed arrives in pieces (terminal.py:83-88). -/
namespace Gsm

/-- Attributes of `RawTerm`, terminal.py:112-116, with what was written to the modem and echoed, as one text
each. -/
structure Raw where
  alive : Bool := true
  echo : Bool := true
  sent : PyStr := []
  echoed : PyStr := []
  deriving DecidableEq

namespace Raw

/-- One round of `_inputLoop`, terminal.py:145-163. `stop` closes the port (terminal.py:134-138). -/
def key (t : Raw) (c : PyStr) : Raw :=
  if t.alive then
    if c = [29] then { t with alive := false }
    else if c = [10] then { t with sent := t.sent ++ [13], echoed := if t.echo then t.echoed ++ c else t.echoed }
    else { t with sent := t.sent ++ c, echoed := if t.echo then t.echoed ++ c else t.echoed }
  else t

/-- A session, with what the console gives. -/
def run (cs : List PyStr) (t : Raw := {}) : Raw := cs.foldl key t

end Raw

end Gsm
