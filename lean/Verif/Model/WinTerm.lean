import Verif.Model.Terminal
/-! # The terminal on Windows: class Console of tools/gsmtermlib/terminal.py:23-56

`msvcrt.getch` gives one character at a time; keys that are no characters give two, the first of which is 0 (keys F1 to F10) or 0xE0 (the others).
Simplification: as in `Model/Terminal.lean`; Python 2. -/
namespace Gsm

/-- `Console.getkey`, terminal.py:43-54, again and again, for what `getch` gives. A call that waits for more gives nothing. -/
def winKeys : List Nat → List PyStr
  | [] => []
  | [z] => if z = 0xe0 ∨ z = 0 then [] else [[if z = 13 then 10 else z]]
  | z :: b :: rest =>
    if z = 0xe0 then [z, b] :: winKeys rest
    else if z = 0 then winKeys rest
    else [if z = 13 then 10 else z] :: winKeys (b :: rest)

namespace Term

/-- `actionChars`, terminal.py:246-265, with the keys of Windows, terminal.py:25-32. `DELETE`, `HOME` and `END` are the empty string; of equal keys of a
`dict` the last counts. -/
def winKeyOf (c : PyStr) : Option Key :=
  if c = [29] ∨ c = [4] then some .exit
  else if c = [0xe0, 0x4b] then some .left
  else if c = [0xe0, 0x4d] then some .right
  else if c = [0xe0, 0x48] then some .up
  else if c = [0xe0, 0x50] then some .down
  else if c = [10] then some .enter
  else if c = [9] then some .tab
  else if c = [26] then some .ctrlZ
  else if c = [27] then some .esc
  else if c = [127] then some .backspace
  else if c = [] then some .toEnd
  else none

/-- One round of `_inputLoop`, terminal.py:267-281. -/
def winPress (env : TermEnv) (c : PyStr) (t : Term) : TermStep :=
  match winKeyOf c with
  | some k => handleKey env t k
  | none =>
    match c with
    | [x] => (.ok (), if isPrintable x then t.insert x else t)
    | _ => (.ok (), t)

def winHappen (env : TermEnv) (t : Term) (c : PyStr) : Term :=
  if t.alive then
    match winPress env c t with
    | (.ok (), t) => t
    | (.error _, t) => { t with alive := false }
  else t

/-- A session, with what `getch` gives. -/
def winSession (env : TermEnv) (bytes : List Nat) (t : Term) : Term := (winKeys bytes).foldl (winHappen env) t

end Term

/-- What is written for a move of the cursor: `CURSOR_LEFT` and `CURSOR_RIGHT`, terminal.py:27-28, which the console shows as two characters each. -/
def winOut : Out → Out
  | .left n => .text (List.replicate n [0xe0, 0x4b]).flatten
  | .right => .text [0xe0, 0x4d]
  | o => o

end Gsm
