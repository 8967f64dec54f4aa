import Verif.Spec.Notify
/-! # Specification: which commands may be sent by whom -/
namespace Gsm.Spec

/-- What a command is for. -/
inductive Purpose
  | mode | centre | ask | ringType | memory | fetch | list | erase | post | body | ussd | ussdEnd | dial | answer | hangUp | tones
  deriving DecidableEq

/-- How the commands of a kind begin (27.005 and 27.007). -/
def Purpose.starts : Purpose → List PyStr
  | .mode => [py!"AT+CMGF="]
  | .centre => [py!"AT+CSCA"]
  -- questions, which change nothing
  | .ask => [py!"AT+CSQ", py!"AT+CGMI", py!"AT+CGMM", py!"AT+CGMR", py!"AT+CGSN", py!"AT+CIMI", py!"AT+COPS?", py!"AT+CLAC", py!"AT+CREG?", py!"AT+CLCC"]
  | .ringType => [py!"AT+CRC=1"]
  | .memory => [py!"AT+CPMS="]
  | .fetch => [py!"AT+CMGR="]
  | .list => [py!"AT+CMGL="]
  | .erase => [py!"AT+CMGD="]
  | .post => [py!"AT+CMGS="]
  | .body => []
  | .ussd => [py!"AT+CUSD=1"]
  | .ussdEnd => [py!"AT+CUSD=2"]
  | .dial => [py!"ATD"]
  | .answer => [py!"ATA"]
  | .hangUp => [py!"ATH"]
  | .tones => [py!"AT+VTS=", py!"AT^DTMF="]

/-- A line of this kind: the text of a message, which ends with ^Z, or a command, which ends with a carriage return. -/
def Purpose.Of (k : Purpose) (c : PyStr) : Prop :=
  if k = .body then c.getLast? = some 26 else c.getLast? = some 13 ∧ ∃ p ∈ k.starts, p <+: c

instance (k : Purpose) (c : PyStr) : Decidable (k.Of c) := by unfold Purpose.Of; infer_instance

/-- What a notification may cause, by what it announces. -/
def newsMay : Dispatch → List Purpose
  | .ring => [.ringType]
  | .cmti | .cdsi => [.memory, .fetch, .erase]
  | .cusd | .call .. => []

/-- What an event may cause. -/
def eventMay : Event → List Purpose
  | .notify _ => [.ringType, .memory, .fetch, .erase]
  | .poll _ => [.ask]

/-- What a method may send. -/
def opMay : Op → List Purpose
  | .event e => eventMay e
  | .setTextMode _ => [.mode]
  | .setSmsc _ | .getSmsc => [.centre]
  | .signalStrength | .manufacturer | .model | .revision | .imei | .imsi | .networkName | .supportedCommands => [.ask]
  | .waitForNetworkCoverage _ => [.ask]
  | .read .. => [.memory, .fetch]
  | .delete .. | .deleteMultiple .. => [.memory, .erase]
  | .list _ _ delete => if delete then [.memory, .list, .erase] else [.memory, .list]
  | .process _ => [.list, .erase]
  | .send .. => [.post, .body]
  | .sendWait _ _ _ early during => [.post, .body] ++ (early ++ during).flatMap eventMay
  | .ussd _ during => .ussd :: during.flatMap eventMay
  | .ussdReply u _ during => if u.sessionActive then .ussd :: during.flatMap eventMay else []
  | .ussdCancel u => if u.sessionActive then [.ussdEnd] else []
  | .dial _ _ _ during => .dial :: during.flatMap eventMay
  | .answer _ => [.answer]
  | .hangup _ => [.hangUp]
  | .dtmf .. => [.tones]

/-- The lines that were sent are of these kinds. -/
def SentOnly (kinds : List Purpose) (old new : List PyStr) : Prop := ∃ sent, new = sent ++ old ∧ ∀ c ∈ sent, ∃ k ∈ kinds, k.Of c

end Gsm.Spec
