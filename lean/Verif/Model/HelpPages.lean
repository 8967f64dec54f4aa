import Verif.Model.AtHelp
/-! # The pages the terminal prints: help, syntax and lists of commands, tools/gsmtermlib/terminal.py

Here the text of the pages is spelled out that `Model/Terminal.lean` only knows to end with a line feed. `use`
is `self.useColor`. -/
namespace Gsm

/-- `_color`, terminal.py:216-221, with `COLOR_SEQ.format(30+n)` and `RESET_SEQ`, terminal.py:183-194. -/
def colour (use : Bool) (n : Nat) (msg : PyStr) : PyStr :=
  if use then py!"\x1b[1;3" ++ [48 + n] ++ py!"m" ++ msg ++ py!"\x1b[0m" else msg

def yellow : Nat := 3
def magenta : Nat := 5
def cyan : Nat := 6
def white : Nat := 7

/-- `valueDesc.replace('\n', '\n' + ' ' * (len(value) + 2)) if valueDesc != None else ''`, terminal.py:521, 529. -/
def hangingText (value : PyStr) : Option PyStr → PyStr
  | none => []
  | some desc => desc.flatMap fun c => if c = 10 then 10 :: List.replicate (value.length + 2) 32 else [c]

/-- A line of the loops over the values, terminal.py:521, 528-529. -/
def valueLine (use : Bool) (col : Nat) (v : PyStr × Option PyStr) : PyStr :=
  py!" " ++ colour use col v.1 ++ py!" " ++ hangingText v.1 v.2 ++ py!"\n"

/-- `'+' in command or command.upper() in ['ATS0']`, terminal.py:511, 579. -/
def takesEquals (command : PyStr) : Bool := command.contains 43 || decide (upper2 command = py!"ATS0")

/-- `valuesIsEnum`, terminal.py:503, 578. -/
def separator (d : HelpDetail) : PyStr := if d.label.isSome then py!"|" else py!","

/-- `syntax`, terminal.py:509-520. -/
def helpSyntax (use : Bool) (command : PyStr) (d : HelpDetail) : PyStr :=
  colour use white command ++
    match d.values with
    | none => []
    | some vs => (if takesEquals command then colour use white py!"=" else []) ++
        pyJoin (separator d) (vs.map fun v => colour use magenta v.1)

/-- `_printCommandHelp` for a command with an entry, terminal.py:495-530. -/
def entryPage (use : Bool) (command : PyStr) (h : HelpEntry) : PyStr :=
  py!"\n\n" ++ colour use white h.name ++ py!" (" ++ command ++ py!")\n\n" ++
  colour use yellow py!"Category:" ++ py!" " ++ h.category ++ py!"\n" ++
  match h.detail with
  | none => py!"\nNo detailed help available for this command.\n\n"
  | some d =>
    colour use yellow py!"Description:" ++ py!" " ++ d.description ++ py!"\n" ++
    colour use yellow (d.label.getD py!"Values:") ++ py!" " ++
    (match d.values with
      | none => py!"No parameters.\n"
      | some vs => py!"\n" ++ vs.flatMap (valueLine use magenta)) ++
    (match d.returns with
      | none => []
      | some vs => colour use yellow py!"Response Values:" ++ py!" \n" ++ vs.flatMap (valueLine use cyan)) ++
    colour use yellow py!"Command Syntax:" ++ py!"\n " ++ helpSyntax use command d ++ py!"\n\n"

/-- `_printGeneralHelp`, terminal.py:470-477. -/
def generalPage (use : Bool) : PyStr :=
  colour use white py!"\n\n== GSMTerm Help ==\n\n" ++
  colour use yellow py!"Command History:" ++ py!" Press the up & down arrow keys to move backwards or forwards through your command history.\n\n" ++
  colour use yellow py!"Command Completion:" ++ py!" Press the TAB key to provide command completion suggestions. Press the TAB key after a command is fully typed (with or without a \"=\" character) to quickly see its syntax.\n\n" ++
  colour use yellow py!"Command Documentation:" ++ py!" Type a command, followed with two quesetion marks to access its documentation, e.g. \"<COMMAND>??\". Alternatively, precede the command with a question mark (\"?<COMMAND>\"), or type \"help <COMMAND>\".\n\n" ++
  colour use yellow py!"List Available Commands:" ++ py!" Type \"ls [category]\" to list the available AT commands known to GSMTerm for the given category (or all commands if no category is specified).\nType \"lscat\" to see a list of categories.\n\n" ++
  colour use yellow py!"Load Script:" ++ py!" Type \"load <filename>\" to load and execute a file containing AT commands, separated by newlines, e.g. \"load ./myscript.txt\".\n\n" ++
  py!"To exit GSMTerm, press CTRL+] or CTRL+D.\n\n"

/-- The line for an unknown command, terminal.py:493. -/
def noHelpPage (use : Bool) (command : PyStr) : PyStr :=
  py!"\r No help available for: " ++ colour use white command ++ py!"\n"

/-- `_printCommandHelp`, terminal.py:480-531, without the prompt at its end. -/
def helpPage (use : Bool) (completion : Trie (Option HelpEntry)) (arg : PyStr) : PyStr :=
  if strip2 arg = [] then generalPage use
  else
    match completion.getItem (upper2 (strip2 arg)) with
    | .ok (some h) => entryPage use (strip2 arg) h
    | .ok none => noHelpPage use (strip2 arg)
    | .error _ => noHelpPage use (strip2 arg)

/-- `'{0:<8} - {1}\n'.format(command, name)`, terminal.py:412, 424. -/
def listLine (command name : PyStr) : PyStr :=
  command ++ List.replicate (8 - command.length) 32 ++ py!" - " ++ name ++ py!"\n"

/-- The loop of `ls`, terminal.py:411-412. -/
def listAll (completion : Trie (Option HelpEntry)) : List PyStr → Except PyErr PyStr
  | [] => .ok []
  | c :: cs => do
    match ← completion.getItem c with
    | none => .error .typeError
    | some h => return listLine c h.name ++ (← listAll completion cs)

/-- The loop of `ls` with a category, terminal.py:421-424. -/
def listCategory (completion : Trie (Option HelpEntry)) (category : PyStr) : List PyStr → Except PyErr PyStr
  | [] => .ok []
  | c :: cs => do
    match ← completion.getItem c with
    | none => .error .typeError
    | some h =>
      let rest ← listCategory completion category cs
      return if category = lower2 h.category then listLine c h.name ++ rest else rest

/-- `_doConfirmInput`, terminal.py:387-427: the page printed for what was entered, if it is a request for one. -/
def pageFor (use : Bool) (completion : Trie (Option HelpEntry)) (categories : List PyStr) (s : PyStr) : Option (Except PyErr PyStr) :=
  let lower := lower2 s
  if 2 < s.length ∧ s.head? = some 63 then some (.ok (helpPage use completion (s.drop 1)))
  else if 2 < s.length ∧ py!"??" <:+ s then
    some (.ok (helpPage use completion (s.take (s.length - if s[s.length - 3]? = some 61 then 3 else 2))))
  else if py!"help" <+: lower then some (.ok (helpPage use completion (s.drop 5)))
  else if py!"ls" <+: lower then
    if lower = py!"lscat" then some (.ok (py!"\n" ++ categories.flatMap fun c => c ++ py!"\n"))
    else if lower = py!"ls" then some (do return py!"\n" ++ (← listAll completion (completion.keys none)))
    else
      match afterSpace lower with
      | none => none
      | some category =>
        if lower2 category ∈ categories.map lower2 then
          some (do return py!"\n" ++ (← listCategory completion (lower2 category) (completion.keys none)))
        else none
  else none

/-- `__printCommandSyntax`, terminal.py:570-584: the line printed, if any. -/
def tabSyntax (use : Bool) (completion : Trie (Option HelpEntry)) (command : PyStr) : Except PyErr (Option PyStr) := do
  match ← completion.getItem command with
  | none => return none
  | some h =>
    match h.detail with
    | none => return none
    | some d =>
      let shown := colour use white command ++
        match d.values with
        | none => []
        | some vs => (if takesEquals command then colour use white py!"=" else []) ++ pyJoin (separator d) (vs.map (·.1))
      return some (py!"\r Syntax: " ++ colour use white shown ++ py!"\n")

/-- `_initAtCommandsTrie`, terminal.py:599-607. -/
def helpTrie (rows : List (PyStr × HelpEntry)) : Trie (Option HelpEntry) :=
  trieOf (rows.map fun r => .set r.1 (some r.2))

end Gsm
