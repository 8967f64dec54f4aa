import Verif.Model.Tools
/-! # The command lines of the tools

`parseArgs` and `parseArgsPy26` of tools/sendsms.py:16-42, tools/identify-modem.py:17-43 and
tools/gsmterm.py:14-37, with the part of Python's `optparse` (Python 2.6) and `argparse` (Python 2.7) they
use: options with one value or none, and one positional argument.

Simplifications: the texts of help and of complaints are left out, only the way in which the program ends is
kept (`--help` ends with status 0, a complaint with status 2); digits in negative numbers are ASCII. -/
namespace Gsm

/-- An option: `add_argument('-x', '--name', …)`; `takes` is false for `action='store_true'` and for help. -/
structure Opt where
  short : Nat
  long : PyStr
  takes : Bool
  deriving DecidableEq

/-- `-h`, `--help`, which both parsers add by themselves. -/
def helpOpt : Opt := ⟨104, py!"help", false⟩

/-- sendsms.py:20-23, 31-34. -/
def sendsmsOpts : List Opt :=
  [helpOpt, ⟨105, py!"port", true⟩, ⟨98, py!"baud", true⟩, ⟨112, py!"pin", true⟩, ⟨100, py!"deliver", false⟩]

/-- identify-modem.py:22-24, 32-34. -/
def identifyOpts : List Opt :=
  [helpOpt, ⟨98, py!"baud", true⟩, ⟨112, py!"pin", true⟩, ⟨100, py!"debug", false⟩]

/-- gsmterm.py:19-20, 28-29. -/
def gsmtermOpts : List Opt :=
  [helpOpt, ⟨98, py!"baud", true⟩, ⟨114, py!"raw", false⟩]

/-- What the parsers end with: the options that were given, in order, with the positional argument; help;
a complaint; an exception of the parser itself. -/
inductive Parsed
  | settings (options : List (PyStr × Option PyStr)) (argument : PyStr)
  | help
  | usage
  | crashed
  deriving DecidableEq

/-- The options whose long name begins with `name`; the one with just this name, if there is one. -/
def longMatches (opts : List Opt) (name : PyStr) : List Opt :=
  match opts.find? (fun o => o.long = name) with
  | some o => [o]
  | none => opts.filter (fun o => name.isPrefixOf o.long)

def findShort (opts : List Opt) (c : Nat) : Option Opt := opts.find? (fun o => o.short = c)

/-- `text.split('=', 1)`, if there is a `=`. -/
def splitEquals : PyStr → Option (PyStr × PyStr)
  | [] => none
  | c :: cs => if c = 61 then some ([], cs) else (splitEquals cs).map fun (a, b) => (c :: a, b)

/-! ### optparse -/

/-- What is known so far: options, arguments. -/
structure Found where
  options : List (PyStr × Option PyStr) := []
  args : List PyStr := []
  deriving DecidableEq

inductive Step (α : Type)
  | go (a : α)
  | stop (p : Parsed)

/-- `_process_short_opts` without its first character: `cs` are the letters after the dash. The rest of the
command line comes back. -/
def shortOpts (opts : List Opt) (f : Found) (rargs : List PyStr) : List Nat → Step (Found × List PyStr)
  | [] => .go (f, rargs)
  | c :: cs =>
    match findShort opts c with
    | none => .stop .usage
    | some o =>
      if o.takes then
        if cs ≠ [] then .go ({ f with options := f.options ++ [(o.long, some cs)] }, rargs)
        else
          match rargs with
          | [] => .stop .usage
          | v :: rargs => .go ({ f with options := f.options ++ [(o.long, some v)] }, rargs)
      else if o = helpOpt then .stop .help
      else shortOpts opts { f with options := f.options ++ [(o.long, none)] } rargs cs

/-- `_process_long_opt`; `name` is what follows the dashes. -/
def longOpt (opts : List Opt) (f : Found) (rargs : List PyStr) (text : PyStr) : Step (Found × List PyStr) :=
  let (name, given) := match splitEquals text with
    | some (n, v) => (n, some v)
    | none => (text, none)
  match longMatches opts name with
  | [o] =>
    if o.takes then
      match given, rargs with
      | some v, _ => .go ({ f with options := f.options ++ [(o.long, some v)] }, rargs)
      | none, v :: rargs => .go ({ f with options := f.options ++ [(o.long, some v)] }, rargs)
      | none, [] => .stop .usage
    else if given.isSome then .stop .usage
    else if o = helpOpt then .stop .help
    else .go ({ f with options := f.options ++ [(o.long, none)] }, rargs)
  | _ => .stop .usage

/-- `_process_args`. One unit of `n` is used for each word; there are enough for the whole command line. -/
def optLoop (opts : List Opt) : Nat → Found → List PyStr → Step Found
  | _, f, [] => .go f
  | 0, f, _ => .go f
  | n + 1, f, arg :: rargs =>
    match arg with
    | [45, 45] => .go { f with args := f.args ++ rargs }
    | 45 :: 45 :: text =>
      match longOpt opts f rargs text with
      | .go (f, rargs) => optLoop opts n f rargs
      | .stop p => .stop p
    | 45 :: c :: cs =>
      match shortOpts opts f rargs (c :: cs) with
      | .go (f, rargs) => optLoop opts n f rargs
      | .stop p => .stop p
    | _ => optLoop opts n { f with args := f.args ++ [arg] } rargs

/-- `parseArgsPy26`: exactly one argument must be left. -/
def parsePy26 (opts : List Opt) (argv : List PyStr) : Parsed :=
  match optLoop opts argv.length {} argv with
  | .stop p => p
  | .go f =>
    match f.args with
    | [a] => .settings f.options a
    | _ => .usage

/-! ### argparse -/

/-- What a word is taken for before any option is looked at: an argument (`A`), the first `--` (`-`), or an
option (`O`) with its explicit value; `none` as option is one that does not exist. `dashes`: it was written
with two dashes. -/
inductive Word
  | arg (text : PyStr)
  | rest
  | opt (o : Option Opt) (dashes : Bool) (given : Option PyStr)
  deriving DecidableEq

/-- `^-\d+$|^-\d*\.\d+$`, for the characters after the dash. -/
def negativeNumber (cs : PyStr) : Bool :=
  let cs := if cs.getLast? = some 10 then cs.dropLast else cs
  let digit : Nat → Bool := fun c => 48 ≤ c ∧ c ≤ 57
  let frac := cs.dropWhile digit
  (cs ≠ [] ∧ cs.all digit) ∨ (frac.head? = some 46 ∧ frac.tail ≠ [] ∧ frac.tail.all digit)

/-- The end of `_parse_optional`: the word begins with a dash and is no option that is known. -/
def unknownWord (arg : PyStr) : Word :=
  if negativeNumber arg.tail then .arg arg
  else if 32 ∈ arg then .arg arg
  else .opt none false none

/-- `_parse_optional`; the empty result is the complaint about an ambiguous option. -/
def classifyWord (opts : List Opt) (arg : PyStr) : Option Word :=
  match arg with
  | 45 :: 45 :: text =>
    let (name, given) := match splitEquals text with
      | some (n, v) => (n, some v)
      | none => (text, none)
    match longMatches opts name with
    | [o] => some (.opt (some o) true given)
    | [] => some (unknownWord arg)
    | _ => none
  | 45 :: c :: cs =>
    match findShort opts c, cs with
    | some o, [] => some (.opt (some o) false none)
    | some o, 61 :: v => some (.opt (some o) false (some v))
    | some o, v => some (.opt (some o) false (some v))
    | none, _ => some (unknownWord arg)
  | _ => some (.arg arg)

/-- The first loop of `_parse_known_args`. -/
def classifyWords (opts : List Opt) : List PyStr → Option (List Word)
  | [] => some []
  | arg :: argv =>
    if arg = [45, 45] then some (.rest :: argv.map .arg)
    else
      match classifyWord opts arg, classifyWords opts argv with
      | some w, some ws => some (w :: ws)
      | _, _ => none

/-- What is known so far; `near`: the word before was taken as the positional argument. -/
structure TakenArgs where
  options : List (PyStr × Option PyStr) := []
  argument : Option PyStr := none
  extras : Bool := false
  near : Bool := false
  deriving DecidableEq

/-- The letters after the option `o` in the same word, `consume_optional`: either they are its value, or they are
further options. The last of these comes back if the words that follow are to be looked at for its value. -/
def consumeGiven (opts : List Opt) (acc : List (PyStr × Option PyStr)) (o : Opt) : PyStr → Step (List (PyStr × Option PyStr) × Option Opt)
  | [] => if o.takes then .go (acc ++ [(o.long, some [])], none) else .stop .crashed
  | c :: cs =>
    if o.takes then .go (acc ++ [(o.long, some (c :: cs))], none)
    else
      match findShort opts c with
      | none => .stop .usage
      | some o' =>
        if cs = [] then .go (acc ++ [(o.long, none)], some o')
        else consumeGiven opts (acc ++ [(o.long, none)]) o' cs

/-- The actions are taken when the whole word is understood: help ends the program then. -/
def acted (t : TakenArgs) (found : List (PyStr × Option PyStr)) : Step TakenArgs :=
  if (helpOpt.long, none) ∈ found then .stop .help
  else .go { t with options := t.options ++ found, near := false }

/-- The other loops of `_parse_known_args`, word by word. -/
def argLoop (opts : List Opt) : Nat → TakenArgs → List Word → Step TakenArgs
  | _, t, [] => .go t
  | 0, t, _ => .go t
  | n + 1, t, .arg a :: ws =>
    match t.argument with
    | none => argLoop opts n { t with argument := some a, near := true } ws
    | some _ => argLoop opts n { t with extras := true, near := false } ws
  | n + 1, t, .rest :: ws =>
    if t.argument.isSome ∧ t.near = false then argLoop opts n { t with extras := true } ws
    else argLoop opts n { t with near := false } ws
  | n + 1, t, .opt none _ _ :: ws => argLoop opts n { t with extras := true, near := false } ws
  | n + 1, t, .opt (some o) dashes given :: ws =>
    let first : Step (List (PyStr × Option PyStr) × Option Opt) :=
      match given with
      | none => .go ([], some o)
      | some v => if dashes ∧ o.takes = false then .stop .usage else consumeGiven opts [] o v
    match first with
    | .stop p => .stop p
    | .go (found, none) =>
      match acted t found with
      | .stop p => .stop p
      | .go t => argLoop opts n t ws
    | .go (found, some o) =>
      if o.takes then
        match ws with
        | .arg v :: ws =>
          match acted t (found ++ [(o.long, some v)]) with
          | .stop p => .stop p
          | .go t => argLoop opts n t ws
        | _ => .stop .usage
      else
        match acted t (found ++ [(o.long, none)]) with
        | .stop p => .stop p
        | .go t => argLoop opts n t ws

/-- `parseArgs`. -/
def parsePy27 (opts : List Opt) (argv : List PyStr) : Parsed :=
  match classifyWords opts argv with
  | none => .usage
  | some ws =>
    match argLoop opts ws.length {} ws with
    | .stop p => p
    | .go t =>
      match t.argument with
      | some a => if t.extras then .usage else .settings t.options a
      | none => .usage

/-! ### The results -/

/-- `args.name` for an option with a value. -/
def optValue (name : PyStr) (options : List (PyStr × Option PyStr)) : Option PyStr :=
  (options.reverse.lookup name).bind (fun v => v)

/-- `args.name` for an option without. -/
def optFlag (name : PyStr) (options : List (PyStr × Option PyStr)) : Bool := (options.lookup name).isSome

/-- sendsms.py with its command line; `a` gives what else happens. -/
def sendsmsMain [PyUnicode] (parse : List Opt → List PyStr → Parsed) (argv : List PyStr) (env : Env) (a : SendArgs) (s : St) : Ended :=
  match parse sendsmsOpts argv with
  | .settings options argument =>
    sendsms env { a with
      port := optValue py!"port" options, pin := optValue py!"pin" options
      deliver := optFlag py!"deliver" options, destination := argument } s
  | .help => ⟨.status 0, s, [], []⟩
  | .usage => ⟨.status 2, s, [], []⟩
  | .crashed => ⟨.raised .indexError, s, [], []⟩

/-- identify-modem.py with its command line. -/
def identifyMain (parse : List Opt → List PyStr → Parsed) (argv : List PyStr) (env : Env) (s : St) : Identified :=
  match parse identifyOpts argv with
  | .settings options _ => identify env (optValue py!"pin" options) (optFlag py!"debug" options) s
  | .help => ⟨.status 0, s, [], []⟩
  | .usage => ⟨.status 2, s, [], []⟩
  | .crashed => ⟨.raised .indexError, s, [], []⟩

/-- The first line that identify-modem.py prints, `print('args:', args)` (identify-modem.py:47): the text of an
`argparse.Namespace`, names in alphabetical order. Strings are shown with single quotes (without quotes, backslashes
and characters beyond ASCII in them). -/
def argsLine (options : List (PyStr × Option PyStr)) (port : PyStr) : PyStr :=
  let quoted : PyStr → PyStr := fun v => py!"'" ++ v ++ py!"'"
  py!"args: Namespace(baud=" ++ (match optValue py!"baud" options with | some b => quoted b | none => py!"115200") ++
  py!", debug=" ++ (if optFlag py!"debug" options then py!"True" else py!"False") ++
  py!", pin=" ++ (match optValue py!"pin" options with | some p => quoted p | none => py!"None") ++
  py!", port=" ++ quoted port ++ py!")"

end Gsm
