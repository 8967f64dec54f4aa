import Verif.Model.Clock
import Verif.Spec.Commands
/-! # Specification: how long a method may block -/
namespace Gsm.Spec

/-- How long the modem was waited for, over the newest `n` commands of the log. -/
def waitedFor (wait : List PyStr → Nat) : Nat → List PyStr → Nat
  | n + 1, c :: log => wait (c :: log) + waitedFor wait n log
  | _, _ => 0

def isAnswer : Reply → Nat
  | .lines _ => 1
  | .timeout _ => 0

/-- How many of the newest `n` commands the modem has answered, not necessarily with success. -/
def answeredAmong (reply : List PyStr → Reply) : Nat → List PyStr → Nat
  | n + 1, c :: log => isAnswer (reply (c :: log)) + answeredAmong reply n log
  | _, _ => 0

open Classical in
/-- How many of the newest `n` commands the modem has answered with busy. -/
noncomputable def busyAmong (reply : List PyStr → Reply) : Nat → List PyStr → Nat
  | n + 1, c :: log => (if AnsweredBusy reply (c :: log) then 1 else 0) + busyAmong reply n log
  | _, _ => 0

/-- The modem never answers. -/
def Silent (reply : List PyStr → Reply) : Prop := ∀ log, ∃ d, reply log = .timeout d

/-- How many commands a task needs at most, when none is repeated. -/
def taskCommands (lines : Nat) : Task → Nat
  | .message (.read _ m) => selecting m + 1
  | .message (.delete _ m) => selecting m + 1
  | .message (.deleteMultiple _ m) => selecting m + 1
  | .message (.list status m delete) => selecting m + 1 + if delete then (if status = 4 then 1 else lines / 2) else 0
  | .message (.send _ text _) => mostToSend text
  | .message (.received _) => 3
  | .message (.statusReport _) => 3
  | .notify _ => 3
  | .poll rounds _ => rounds
  | _ => 1

/-- The tasks that delete one by one what they have listed. -/
def deletesListed : Task → Bool
  | .message (.list status _ delete) => delete && status != 4
  | _ => false

/-- The tasks that wait for the answer to each command; `dial` does not on some modems. -/
def waitsAlways : Task → Bool
  | .dial _ _ => false
  | _ => true

/-- The tasks that do not go on when the modem has not answered. -/
def givesUp : Task → Bool
  | .poll _ _ => false
  | .dial _ _ => false
  | _ => true

end Gsm.Spec
