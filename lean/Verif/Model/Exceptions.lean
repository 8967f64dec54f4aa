import Verif.Model.ModemCalls
import Verif.Model.DialExamples
/-! # The exception classes: gsmmodem/exceptions.py

Objects are made the way Python makes them: `cls(*args, **kw)` calls `cls.__new__`, and if the result is an
instance of `cls`, the `__init__` of its own class with the same arguments. Simplification: arguments are
`None`, strings or integers. -/
namespace Gsm.Exc

/-- The classes, exceptions.py:3-134. -/
inductive Cls
  | gsmModem | timeout | invalidState | interrupted | command | cme | security | pinRequired | incorrectPin | pukRequired
  | cms | smscUnknown | encoding
  deriving DecidableEq, Repr

/-- The class named in the `class` statement; `none` is `Exception`. -/
def Cls.base : Cls → Option Cls
  | gsmModem => none
  | timeout => some gsmModem
  | invalidState => some gsmModem
  | interrupted => some invalidState
  | command => some gsmModem
  | cme => some command
  | security => some cme
  | pinRequired => some security
  | incorrectPin => some security
  | pukRequired => some security
  | cms => some command
  | smscUnknown => some cms
  | encoding => some gsmModem

/-- The class and those it is derived from, within `n` steps. -/
def Cls.above : Nat → Cls → List Cls
  | 0, c => [c]
  | n + 1, c => c :: (match c.base with | some d => Cls.above n d | none => [])

/-- `issubclass(c, d)`; no class is more than five steps from `Exception`. -/
def Cls.isSub (c d : Cls) : Bool := (Cls.above 5 c).contains d

inductive Val
  | none
  | str (s : PyStr)
  | int (n : Int)
  deriving DecidableEq, Repr

/-- `'{0}'.format(v)`. -/
def Val.format : Val → PyStr
  | none => py!"None"
  | str s => s
  | int n => intStr n

inductive Param
  | command | type | code
  deriving DecidableEq, Repr

/-- A `CommandError` object: its class, attributes, and `BaseException.args`. -/
structure Obj where
  cls : Cls
  command : Val := .none
  type : Val := .none
  code : Val := .none
  args : List Val := []
  deriving DecidableEq, Repr

/-- Fits the arguments of a call to the parameters (with their defaults). -/
def bindArgs (kw : List (Param × Val)) : List (Param × Option Val) → List Val → Except PyErr (List Val)
  | [], [] => .ok []
  | [], _ :: _ => .error .typeError
  | (p, _) :: ps, v :: vs =>
    if (kw.lookup p).isSome then .error .typeError
    else do return v :: (← bindArgs kw ps vs)
  | (p, d) :: ps, [] =>
    match kw.lookup p, d with
    | some v, _ => do return v :: (← bindArgs kw ps [])
    | Option.none, some v => do return v :: (← bindArgs kw ps [])
    | Option.none, Option.none => .error .typeError

/-- The parameters of `__init__`, exceptions.py:38, 68, 75, 84, 93, 102, 120, 129. -/
def Cls.params : Cls → List (Param × Option Val)
  | command => [(.command, some .none), (.type, some .none), (.code, some .none)]
  | pinRequired => [(.command, Option.none), (.code, some (.int 11))]
  | incorrectPin => [(.command, Option.none), (.code, some (.int 16))]
  | pukRequired => [(.command, Option.none), (.code, some (.int 12))]
  | smscUnknown => [(.command, Option.none), (.code, some (.int 330))]
  | _ => [(.command, Option.none), (.code, Option.none)]

/-- `_description`, exceptions.py:36, 82, 91, 100, 127. -/
def Cls.description : Cls → PyStr
  | pinRequired => py!"SIM card PIN is required"
  | incorrectPin => py!"Incorrect PIN entered"
  | pukRequired => py!"PUK required (SIM locked)"
  | smscUnknown => py!"SMSC number not set"
  | _ => []

/-- `CommandError.__init__`, exceptions.py:38-47. -/
def commandInit (o : Obj) (command type code : Val) : Obj :=
  { o with command := command, type := type, code := code, args :=
      (if type ≠ .none ∧ code ≠ .none then
        [.str (type.format ++ py!" " ++ code.format ++ (if o.cls.description.length > 0 then py!" (" ++ o.cls.description ++ py!")" else []))]
      else if command ≠ .none then [command]
      else []) }

/-- The type that the `__init__` of a subclass passes on. -/
def Cls.typeOf : Cls → Val
  | cms | smscUnknown => .str py!"CMS"
  | _ => .str py!"CME"

/-- `type(o).__init__(o, *args, **kw)`. -/
def initObj (o : Obj) (args : List Val) (kw : List (Param × Val)) : Except PyErr Obj :=
  if kw.all (fun x => (o.cls.params.lookup x.1).isSome) then do
    match ← bindArgs kw o.cls.params args with
    | [command, type, code] => return commandInit o command type code
    | [command, code] => return commandInit o command o.cls.typeOf code
    | _ => .error .typeError
  else .error .typeError

/-- The class that `__new__` chooses, exceptions.py:56-66, 112-118. -/
def special (c : Cls) (args : List Val) : Option Cls :=
  match args with
  | _ :: code :: _ =>
    if c.isSub .cme then
      if code = .int 11 then some .pinRequired
      else if code = .int 16 then some .incorrectPin
      else if code = .int 12 then some .pukRequired
      else Option.none
    else if c.isSub .cms then
      if code = .int 330 then some .smscUnknown else Option.none
    else Option.none
  | _ => Option.none

/-- `c(*args, **kw)` when `__new__` makes an object of the class itself. -/
def plain (c : Cls) (args : List Val) (kw : List (Param × Val)) : Except PyErr Obj := initObj { cls := c, args := args } args kw

/-- `c(*args, **kw)` for a subclass of `CommandError`. -/
def construct (c : Cls) (args : List Val) (kw : List (Param × Val) := []) : Except PyErr Obj :=
  match special c args with
  | Option.none => plain c args kw
  | some d => do
    let o ← plain d (args.take 1) []
    if d.isSub c then initObj o args kw else return o

/-- `str(e)`; no `args` here are longer. -/
def Obj.text (o : Obj) : PyStr :=
  match o.args with
  | [] => []
  | v :: _ => v.format

/-- `copy.copy(e)` (and `pickle`): `type(e)(*e.args)`, and then the attributes. -/
def Obj.copy (o : Obj) : Except PyErr Obj := do
  let n ← construct o.cls o.args
  return { n with command := o.command, type := o.type, code := o.code }

/-- The class of an exception of the model of the library; `none` for those of Python itself. -/
def clsOf : PyErr → Option Cls
  | .encodingError => some .encoding
  | .timeout _ => some .timeout
  | .invalidState => some .invalidState
  | .interrupted _ => some .interrupted
  | .command .command _ => some .command
  | .command .cme _ => some .cme
  | .command .cms _ => some .cms
  | .command .pinRequired _ => some .pinRequired
  | .command .incorrectPin _ => some .incorrectPin
  | .command .pukRequired _ => some .pukRequired
  | .command .smscUnknown _ => some .smscUnknown
  | _ => Option.none

/-- Whether `except d` handles the exception. -/
def handles (d : Cls) (e : PyErr) : Bool :=
  match clsOf e with
  | some c => c.isSub d
  | Option.none => false

end Gsm.Exc
