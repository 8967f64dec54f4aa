import Verif.Model.Exceptions
/-! # Specification for C84: which exception an error code means, and who catches it -/
namespace Gsm.Spec
open Exc

/-- The exceptions that an `except` clause for a class is meant to catch. -/
def caughtBy : Cls → List Cls
  | .gsmModem => [.gsmModem, .timeout, .invalidState, .interrupted, .command, .cme, .security, .pinRequired, .incorrectPin, .pukRequired, .cms, .smscUnknown, .encoding]
  | .timeout => [.timeout]
  | .invalidState => [.invalidState, .interrupted]
  | .interrupted => [.interrupted]
  | .command => [.command, .cme, .security, .pinRequired, .incorrectPin, .pukRequired, .cms, .smscUnknown]
  | .cme => [.cme, .security, .pinRequired, .incorrectPin, .pukRequired]
  | .security => [.security, .pinRequired, .incorrectPin, .pukRequired]
  | .pinRequired => [.pinRequired]
  | .incorrectPin => [.incorrectPin]
  | .pukRequired => [.pukRequired]
  | .cms => [.cms, .smscUnknown]
  | .smscUnknown => [.smscUnknown]
  | .encoding => [.encoding]

/-- 3GPP 27.007, 9.2: 11 SIM PIN required, 12 SIM PUK required, 16 incorrect password. -/
inductive CmeMeans : Int → Cls → PyStr → Prop
  | pin : CmeMeans 11 .pinRequired py!"CME 11 (SIM card PIN is required)"
  | puk : CmeMeans 12 .pukRequired py!"CME 12 (PUK required (SIM locked))"
  | password : CmeMeans 16 .incorrectPin py!"CME 16 (Incorrect PIN entered)"
  | other {n} : n ≠ 11 → n ≠ 12 → n ≠ 16 → CmeMeans n .cme (py!"CME " ++ intStr n)

/-- 3GPP 27.005, 3.2.5: 330 SMSC address unknown. -/
inductive CmsMeans : Int → Cls → PyStr → Prop
  | smsc : CmsMeans 330 .smscUnknown py!"CMS 330 (SMSC number not set)"
  | other {n} : n ≠ 330 → CmsMeans n .cms (py!"CMS " ++ intStr n)

/-- The object says what was written, and which error of which kind was the answer. -/
structure ErrorSays (o : Obj) (command : Val) (type : PyStr) (code : Int) : Prop where
  command : o.command = command
  type : o.type = .str type
  code : o.code = .int code

end Gsm.Spec
