import Verif.Model.Trie
import Verif.Model.Modem
/-! # The terminal: class GsmTerm of tools/gsmtermlib/terminal.py

It works on Python 2 (the keys read from the console are compared with `str`), on the POSIX console: its
strings are byte strings, whose `strip`, `upper`, `lower` and `isspace` know the ASCII characters only.

Simplifications: the colours of the output are left out; what is printed as help or as a list of commands
is only known to end with a line feed (the texts are in `Model/HelpPages.lean`); the help texts of the table are pairs, five- and six-tuples as in
atcommands.py; a key, a notification of the modem and the answer to `AT+CMGS` are handled one after the
other; lines of the screen do not wrap. -/
namespace Gsm

/-- `c.isspace()`. -/
def isBlank (c : Nat) : Bool := decide (c = 32 ∨ (9 ≤ c ∧ c ≤ 13))
/-- `s.strip()`. -/
def strip2 (s : PyStr) : PyStr := ((s.dropWhile isBlank).reverse.dropWhile isBlank).reverse
/-- `s.upper()`. -/
def upper2 (s : PyStr) : PyStr := s.map fun c => if 97 ≤ c ∧ c ≤ 122 then c - 32 else c
/-- `s.lower()`. -/
def lower2 (s : PyStr) : PyStr := s.map fun c => if 65 ≤ c ∧ c ≤ 90 then c + 32 else c

/-- Entry of the table of commands, atcommands.py: category, name, and whether there is more. -/
structure CmdHelp where
  category : PyStr
  name : PyStr
  long : Bool
  deriving DecidableEq, Repr

/-- What is written to the console. -/
inductive Out
  | cr
  | text (s : PyStr)
  | left (n : Nat)
  | right
  | newline
  | page           -- some text that ends with a line feed
  deriving DecidableEq, Repr

/-- What the terminal is connected to: `reply` is the response to `AT+CMGS` (given all that was written,
most recent first), `files` the readable files with their lines, `depth` the recursion limit. -/
structure TermEnv where
  reply : List PyStr → Reply
  files : PyStr → Option (List PyStr)
  depth : Nat

/-- Attributes of `GsmTerm`, terminal.py:197-209, with records of what was written to the modem (`sent`)
and to the console (`out`) and of the commands entered, most recent first. -/
structure Term where
  inputBuffer : PyStr := []
  cursorPos : Nat := 0
  history : List PyStr := []
  historyPos : Nat := 0
  typingSms : Bool := false
  alive : Bool := true
  prompt : PyStr := py!"GSM> "
  smsPrompt : PyStr := py!"> "
  completion : Trie (Option CmdHelp)
  categories : List PyStr
  sent : List PyStr := []
  out : List Out := []
  entered : List PyStr := []

/-- A step: the exception it raises, if any, and the state afterwards. -/
abbrev TermStep := Except PyErr Unit × Term

namespace Term

/-- `sys.stdout.write`. -/
def emit (l : List Out) (t : Term) : Term := { t with out := l.reverse ++ t.out }

/-- `self.serial.write`. -/
def send (s : PyStr) (t : Term) : Term := { t with sent := s :: t.sent }

/-- The prompt in use. -/
def termPrompt (t : Term) : PyStr := if t.typingSms then t.smsPrompt else t.prompt

/-- `_refreshInputPrompt`, terminal.py:589-593. -/
def refresh (clearLen : Nat) (t : Term) : Term :=
  let endPoint := if 0 < clearLen then clearLen else t.inputBuffer.length
  t.emit [.cr, .text t.termPrompt, .text t.inputBuffer, .text (List.replicate (clearLen - t.inputBuffer.length) 32), .left (endPoint - t.cursorPos)]

/-- `_removeInputPrompt`, terminal.py:595-597. -/
def removePrompt (t : Term) : Term :=
  t.emit [.cr, .text (List.replicate (t.termPrompt.length + t.inputBuffer.length) 32), .cr]

/-- `_handleModemNotification`, terminal.py:227-236. -/
def notification (lines : List PyStr) (t : Term) : TermStep :=
  let t := t.removePrompt
  match lines with
  | [] => (.error .indexError, t)
  | line :: _ =>
    let t := if t.typingSms then { t with prompt := line } else t
    (.ok (), (t.emit [.page]).refresh 0)

/-- `_addToHistory`, terminal.py:238-241. -/
def addToHistory (command : PyStr) (t : Term) : Term :=
  let history := t.history ++ [command]
  { t with history := if history.length > 100 then history.drop 1 else history, entered := command :: t.entered }

/-- `_handleCtrlZ`, terminal.py:286-295. -/
def ctrlZ (t : Term) : Term :=
  if t.typingSms then
    let t := (t.send t.inputBuffer).send [26]
    ({ t with typingSms := false, inputBuffer := [], cursorPos := 0 }.emit [.newline]).refresh 0
  else t

/-- `_handleEsc`, terminal.py:297-303. -/
def esc (t : Term) : Term :=
  if t.typingSms then { t.send [27] with typingSms := false, inputBuffer := [], cursorPos := 0 } else t

/-- `_exit`, terminal.py:305-309. -/
def exit (t : Term) : Term := { t.removePrompt.emit [.page] with alive := false }

/-- `_cursorLeft`, terminal.py:311-316. -/
def cursorLeft (t : Term) : Term :=
  if 0 < t.cursorPos then { t with cursorPos := t.cursorPos - 1 }.emit [.left 1] else t

/-- `_cursorRight`, terminal.py:318-323. -/
def cursorRight (t : Term) : Term :=
  if t.cursorPos < t.inputBuffer.length then { t with cursorPos := t.cursorPos + 1 }.emit [.right] else t

/-- The command at the history position is shown. -/
def recall (t : Term) : TermStep :=
  match t.history[t.historyPos]? with
  | none => (.error .indexError, t)
  | some h => (.ok (), { t with inputBuffer := h, cursorPos := h.length }.refresh t.inputBuffer.length)

/-- `_cursorUp`, terminal.py:325-332. -/
def cursorUp (t : Term) : TermStep :=
  if 0 < t.historyPos then { t with historyPos := t.historyPos - 1 }.recall else (.ok (), t)

/-- `_cursorDown`, terminal.py:334-341. -/
def cursorDown (t : Term) : TermStep :=
  if t.historyPos + 1 < t.history.length then { t with historyPos := t.historyPos + 1 }.recall else (.ok (), t)

/-- `_handleBackspace`, terminal.py:343-350. -/
def backspace (t : Term) : Term :=
  if 0 < t.cursorPos then
    let buffer := t.inputBuffer.take (t.cursorPos - 1) ++ t.inputBuffer.drop t.cursorPos
    { t with inputBuffer := buffer, cursorPos := t.cursorPos - 1 }.refresh (buffer.length + 1)
  else t

/-- `_handleDelete`, terminal.py:352-356. -/
def delete (t : Term) : Term :=
  if t.cursorPos < t.inputBuffer.length then
    let buffer := t.inputBuffer.take t.cursorPos ++ t.inputBuffer.drop (t.cursorPos + 1)
    { t with inputBuffer := buffer }.refresh (buffer.length + 1)
  else t

/-- `_handleHome`, terminal.py:358-361. -/
def home (t : Term) : Term := { t with cursorPos := 0 }.refresh t.inputBuffer.length

/-- `_handleEnd`, terminal.py:363-366. -/
def toEnd (t : Term) : Term := { t with cursorPos := t.inputBuffer.length }.refresh t.inputBuffer.length

/-- A printable character, terminal.py:275-278. -/
def insert (c : Nat) (t : Term) : Term :=
  { t with inputBuffer := t.inputBuffer.take t.cursorPos ++ c :: t.inputBuffer.drop t.cursorPos, cursorPos := t.cursorPos + 1 }.refresh 0

/-- `_printCommandHelp`, terminal.py:470-531: it prints something and then the prompt. -/
def commandHelp (t : Term) : Term := (t.emit [.page]).refresh t.inputBuffer.length

/-- The loops of `ls`, terminal.py:411-412, 421-424; the listed commands must have an entry. -/
def listCommands (t : Term) : List PyStr → TermStep
  | [] => (.ok (), (t.emit [.page]).refresh t.inputBuffer.length)
  | c :: cs =>
    match t.completion.getItem c with
    | .error e => (.error e, t)
    | .ok none => (.error .typeError, t)
    | .ok (some _) => listCommands t cs

/-- The kinds of input, terminal.py:387-450. -/
inductive Input
  | help | categories | list | script (name : PyStr) | sms | command | nothing
  deriving DecidableEq, Repr

/-- `inputStr` of one kind. -/
def kindOf (categories : List PyStr) (s : PyStr) : Input :=
  let lower := lower2 s
  if 2 < s.length ∧ s.head? = some 63 then .help
  else if 2 < s.length ∧ py!"??" <:+ s then .help
  else if py!"help" <+: lower then .help
  else if lower = py!"lscat" then .categories
  else if lower = py!"ls" then .list
  else if py!"ls" <+: lower ∧ (afterSpace lower).elim false (fun c => c ∈ categories.map lower2) = true then .list
  else if py!"load" <+: lower ∧ (afterSpace s).isSome then .script (strip2 ((afterSpace s).getD []))
  else if s = [] then .nothing
  else if py!"at+cmgs=" <+: lower then .sms
  else .command

/-- The lines of a script, terminal.py:441-446. -/
def script (confirm : Term → TermStep) : List PyStr → Term → TermStep
  | [], t => (.ok (), t)
  | line :: lines, t =>
    let c := strip2 line
    if c ≠ [] ∧ c.head? ≠ some 35 then
      match confirm ({ t with inputBuffer := c }.refresh c.length) with
      | (.ok (), t) => script confirm lines t
      | (.error e, t) => (.error e, t)
    else script confirm lines t

/-- Enter while a message is typed, terminal.py:369-377. -/
def confirmSms (t : Term) : Term :=
  let t := t.send (t.inputBuffer.take t.cursorPos)
  ({ t with inputBuffer := t.inputBuffer.drop t.cursorPos, cursorPos := 0 }.emit [.newline]).refresh 0

/-- `AT+CMGS`, terminal.py:450-463. -/
def startSms (env : TermEnv) (s : PyStr) (t : Term) : TermStep :=
  let t := ({ t with typingSms := true }.emit [.newline]).send (s ++ [13])
  match env.reply t.sent with
  | .timeout _ => (.ok (), { t with typingSms := false }.refresh 0)
  | .lines [] => (.error .indexError, t.emit [.page])
  | .lines (p :: _) => (.ok (), ({ t with smsPrompt := p }.emit [.page]).refresh 0)

/-- What is entered, terminal.py:380-386. -/
def accept (t : Term) : PyStr × Term :=
  let s := strip2 t.inputBuffer
  let t := { t with inputBuffer := [], cursorPos := 0 }
  (s, if s ≠ [] then let t := t.addToHistory s; { t with historyPos := t.history.length } else t)

/-- `_doConfirmInput`, terminal.py:368-468. -/
def confirm (env : TermEnv) : Nat → Term → TermStep
  | 0, t => (.error .recursionError, t)
  | n + 1, t =>
    if t.typingSms then (.ok (), t.confirmSms)
    else if t.inputBuffer = [] then (.ok (), t.emit [.newline])
    else
      let s := t.accept.1
      let t := t.accept.2
      match kindOf t.categories s with
      | .help => (.ok (), t.commandHelp)
      | .categories => (.ok (), (t.emit [.page]).refresh t.inputBuffer.length)
      | .list => t.listCommands (t.completion.keys none)
      | .script name =>
        match env.files name with
        | none => (.ok (), (t.emit [.page]).refresh t.inputBuffer.length)
        | some lines => script (confirm env n) lines (t.emit [.newline])
      | .sms => startSms env s t
      | .command => (.ok (), ((t.send s).send [13]).emit [.newline])
      | .nothing => (.ok (), t.emit [.newline])

/-- `__printCommandSyntax`, terminal.py:570-584. -/
def commandSyntax (command : PyStr) (t : Term) : TermStep :=
  match t.completion.getItem command with
  | .error e => (.error e, t)
  | .ok (some h) => (.ok (), if h.long then (t.emit [.page]).refresh t.inputBuffer.length else t)
  | .ok none => (.ok (), t)

/-- `_doCommandCompletion`, terminal.py:533-568. -/
def complete (t : Term) : TermStep :=
  let pre := upper2 (strip2 t.inputBuffer)
  match t.completion.keys (some pre) with
  | [] =>
    match pre.getLast? with
    | none => (.error .indexError, t)
    | some c => if c = 61 then t.commandSyntax pre.dropLast else (.ok (), t)
  | [m] =>
    if m = pre then t.commandSyntax pre
    else (.ok (), { t with inputBuffer := m, cursorPos := m.length }.refresh m.length)
  | _ :: _ :: _ =>
    let common := t.completion.longestCommonPrefix t.inputBuffer
    (.ok (), ({ t with inputBuffer := common, cursorPos := common.length }.emit [.newline, .page]).refresh common.length)

/-- The keys with a meaning, terminal.py:246-265, 63-69. -/
inductive Key
  | exit | left | right | up | down | enter | tab | ctrlZ | esc | backspace | delete | home | toEnd
  deriving DecidableEq, Repr

/-- `actionChars`. -/
def keyOf (c : PyStr) : Option Key :=
  if c = [29] ∨ c = [4] then some .exit
  else if c = [27, 91, 68] then some .left
  else if c = [27, 91, 67] then some .right
  else if c = [27, 91, 65] then some .up
  else if c = [27, 91, 66] then some .down
  else if c = [10] then some .enter
  else if c = [9] then some .tab
  else if c = [26] then some .ctrlZ
  else if c = [27] then some .esc
  else if c = [127] then some .backspace
  else if c = [27, 91, 51, 126] then some .delete
  else if c = [27, 79, 72] then some .home
  else if c = [27, 79, 70] then some .toEnd
  else none

/-- The method for a key. -/
def handleKey (env : TermEnv) (t : Term) : Key → TermStep
  | .exit => (.ok (), t.exit)
  | .left => (.ok (), t.cursorLeft)
  | .right => (.ok (), t.cursorRight)
  | .up => t.cursorUp
  | .down => t.cursorDown
  | .enter => confirm env env.depth t
  | .tab => t.complete
  | .ctrlZ => (.ok (), t.ctrlZ)
  | .esc => (.ok (), t.esc)
  | .backspace => (.ok (), t.backspace)
  | .delete => (.ok (), t.delete)
  | .home => (.ok (), t.home)
  | .toEnd => (.ok (), t.toEnd)

/-- `_isPrintable`, terminal.py:586-587. -/
def isPrintable (c : Nat) : Bool := decide (33 ≤ c ∧ c ≤ 126) || isBlank c

/-- One round of `_inputLoop`, terminal.py:267-281, with what the console gives (up to four characters at
once). -/
def press (env : TermEnv) (c : PyStr) (t : Term) : TermStep :=
  match keyOf c with
  | some k => handleKey env t k
  | none =>
    match c with
    | [x] => (.ok (), if isPrintable x then t.insert x else t)
    | _ => (.ok (), t)

/-- What happens to the terminal. -/
inductive Happening
  | key (c : PyStr)
  | notify (lines : List PyStr)
  deriving DecidableEq, Repr

/-- An exception ends the loop. A notification that raises ends the thread that reads from the modem. -/
def happen (env : TermEnv) (t : Term) : Happening → Term
  | .key c =>
    if t.alive then
      match press env c t with
      | (.ok (), t) => t
      | (.error _, t) => { t with alive := false }
    else t
  | .notify lines => if t.alive then (t.notification lines).2 else t

/-- A whole session. -/
def session (env : TermEnv) (hs : List Happening) (t : Term) : Term := hs.foldl (happen env) t

/-- `printStartMessage`, terminal.py:211-214, and the state before. -/
def start (completion : Trie (Option CmdHelp)) (categories : List PyStr) : Term :=
  ({ completion, categories : Term }.emit [.page]).refresh 0

end Term

end Gsm
