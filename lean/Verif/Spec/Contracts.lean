import Verif.Model.ModemCalls
import Verif.Spec.Modem
/-! # Which exceptions a method of the modem may raise -/
namespace Gsm.Spec
open Gsm

/-- No response is empty: all that is used to bound the exceptions. -/
def AnswersAll (env : Env) : Prop := 0 < env.depth ∧ ∀ h, env.reply h ≠ .lines []

/-- A final result code. -/
def FinalResult (l : List Nat) : Prop := l = py!"OK" ∨ l = py!"ERROR" ∨ ∃ ty ds, IsCmError ty ds l

/-- A modem in order: every response ends with a final result code. -/
def Proper (env : Env) : Prop :=
  0 < env.depth ∧ ∀ h ls, env.reply h = .lines ls → ∃ before l, ls = before ++ [l] ∧ FinalResult l

/-- The modem refuses a command: with a bare error, or with a code that does not mean busy. -/
inductive Refusal : PyErr → Prop
  | plain : Refusal (.command .command none)
  | code {ty : List Nat} {n : Nat} : ty = py!"CME" ∨ ty = py!"CMS" → n ≠ 14 → n ≠ 515 → Refusal (errorFor ty n)

/-- It does not answer, refuses, or stays busy. -/
inductive CmdFails : PyErr → Prop
  | silent (d : Option (List (List Nat))) : CmdFails (.timeout d)
  | refused {e : PyErr} : Refusal e → CmdFails e
  | busy : CmdFails .recursionError

/-- What a PDU that is not understood gives, besides `EncodingError`. -/
def Undecoded (e : PyErr) : Prop := e = .stopIteration ∨ e = .typeError ∨ e = .valueError ∨ e = .indexError

/-- There is a brace after the first tone. -/
def BraceAfterFirst (tones : List Nat) : Prop := ∃ c ∈ tones.drop 1, c = 123 ∨ c = 125

/-- The exceptions of each operation. `Unsendable` are the exceptions of the encoder for this message. -/
def MayRaise (Unsendable : List Nat → List Nat → Bool → PyErr → Prop) : Op → PyErr → Prop
  | .event _, _ => False
  | .getSmsc, e => CmdFails e ∧ e ≠ errorFor py!"CMS" 330
  | .revision, e => (∃ d, e = .timeout d) ∨ e = .recursionError
  | .supportedCommands, e => (∃ d, e = .timeout d) ∨ e = .recursionError
  | .waitForNetworkCoverage 0, e => e = .timeout none
  | .waitForNetworkCoverage 1, e => (∃ d, e = .timeout d) ∨ e = .invalidState
  | .waitForNetworkCoverage (_ + 2), e => CmdFails e ∨ e = .invalidState
  | .read _ _, e => CmdFails e ∨ e = .keyError ∨ e = .encodingError ∨ Undecoded e
  | .list st _ _, e => CmdFails e ∨ (0 ≤ st ∧ st ≤ 4 ∧ e = .keyError) ∨ Undecoded e
  | .process _, e => CmdFails e ∨ e = .keyError ∨ Undecoded e
  | .deleteMultiple f _, e => if 0 < f ∧ f ≤ 4 then CmdFails e else e = .valueError
  | .send d t f, e => CmdFails e ∨ e = .valueError ∨ Unsendable d t f e
  | .sendWait d t f _ _, e => CmdFails e ∨ e = .valueError ∨ Unsendable d t f e
  | .ussd _ _, e => CmdFails e ∨ e = .indexError
  | .ussdReply u _ _, e => if u.sessionActive then CmdFails e ∨ e = .indexError else e = .invalidState
  | .ussdCancel u, e => u.sessionActive ∧ CmdFails e
  | .dtmf _ t, e => e = .invalidState ∨ (BraceAfterFirst t ∧ e = .valueError) ∨
      (¬ BraceAfterFirst t ∧ (e = .interrupted 3 ∨ e = .interrupted 30 ∨
        (CmdFails e ∧ e ≠ errorFor py!"CME" 3 ∧ e ≠ errorFor py!"CME" 30)))
  | _, e => CmdFails e

/-- The exceptions of gsmmodem/exceptions.py. -/
def OfLibrary : PyErr → Prop
  | .timeout _ | .invalidState | .interrupted _ | .command _ _ | .encodingError => True
  | _ => False

/-- The operations that may let a general Python exception through, even if the modem never stays busy. -/
def LetsThrough : Op → Prop
  | .read _ _ | .list _ _ _ | .process _ | .send _ _ _ | .sendWait _ _ _ _ _ | .ussd _ _ => True
  | .deleteMultiple f _ => ¬ (0 < f ∧ f ≤ 4)
  | .ussdReply u _ _ => u.sessionActive
  | .dtmf _ t => BraceAfterFirst t
  | _ => False

/-- The exceptions of `connect`. -/
def ConnectMayRaise (e : PyErr) : Prop :=
  CmdFails e ∨ e = .typeError ∨ e = .valueError ∨ e = .attributeError ∨ e = .indexError

end Gsm.Spec
