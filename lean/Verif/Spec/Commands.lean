import Verif.Model.ModemCalls
import Verif.Spec.ModemLog
/-! # Specification: how many commands a method may send -/
namespace Gsm.Spec

/-- The command that selects a memory, if one is named. -/
def selecting : Option PyStr → Nat
  | none => 0
  | some _ => 1

/-- The answers of the modem have at most so many lines. -/
def Brief (reply : List PyStr → Reply) (lines : Nat) : Prop := ∀ log ls, reply log = .lines ls → ls.length ≤ lines

/-- The modem never says that it is busy. -/
def NeverBusy (reply : List PyStr → Reply) : Prop := ∀ log, ¬ AnsweredBusy reply log

/-- What happens by itself: to fetch a message takes a memory, a reading and a deletion. -/
def eventCommands : Event → Nat
  | .notify _ => 3
  | .poll _ => 1

/-- Two commands for each part of a message; a part has at least 70 characters, but for the last. -/
def mostToSend (text : PyStr) : Nat := 2 * (text.length / 70 + 1)

/-- How many commands a method may need, if answers have at most `lines` lines. A listed message takes at least two of them. -/
def maxCommands (lines : Nat) : Op → Nat
  | .event e => eventCommands e
  | .waitForNetworkCoverage rounds => rounds
  | .read _ m => selecting m + 1
  | .delete _ m => selecting m + 1
  | .deleteMultiple _ m => selecting m + 1
  | .list status m delete => selecting m + 1 + if delete then (if status = 4 then 1 else lines / 2) else 0
  | .process unreadOnly => (if unreadOnly then 1 else 2) * (1 + lines / 2)
  | .send _ text _ => mostToSend text
  | .sendWait _ text _ early during => mostToSend text + (early.map eventCommands).sum + (during.map eventCommands).sum
  | .ussd _ during => 1 + (during.map eventCommands).sum
  | .ussdReply _ _ during => 1 + (during.map eventCommands).sum
  | .dial _ _ _ during => 1 + (during.map eventCommands).sum
  | _ => 1

/-- The methods that delete one by one what they have listed. -/
def deletesEach : Op → Bool
  | .list status _ delete => delete && status != 4
  | .process _ => true
  | _ => false

/-- The same for `connect`. -/
def mostToConnect : Nat := 26

end Gsm.Spec
