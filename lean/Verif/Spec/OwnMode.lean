import Verif.Spec.OwnMemory
/-! # Specification: the mode in which threads write about messages -/
namespace Gsm.Spec

/-- A command that lists messages or announces one is in the form of the mode (27.005): a quotation mark follows in text mode, a number in PDU mode. -/
def InForm (text : Bool) (c : PyStr) : Prop :=
  ∀ p, p = py!"AT+CMGL=" ∨ p = py!"AT+CMGS=" → p <+: c → [13] <:+ c → (p ++ [34] <+: c ↔ text = true)

/-- The method sets no other mode. -/
def OneMode (text : Bool) : Method → Prop
  | .setTextMode v => v = text
  | .ask c => ¬ SelectsMode (c ++ [13]) ∧ InForm text (c ++ [13])
  | _ => True

/-- The thread sets no other mode. -/
def OneModeTask (text : Bool) : Task → Prop
  | .message x => OneMode text x
  | _ => True

/-- The mode was the last that the modem was told to use, and it has agreed. -/
def ModeInUse (env : Env) (text : Bool) (log : List PyStr) : Prop := LastAccepted env.reply SelectsMode log (modeCmd text)

end Gsm.Spec
