import Verif.Model.Several
/-! # Messages that are forgotten: modem.py:145, 655-658, 1002-1019

`sentSms` is a `weakref.WeakValueDictionary`: when the program has no more use for a `SentSms` object, the
object vanishes, and so does its entry. An entry that belongs to a later message with the same reference stays.

Simplifications: objects vanish between the uses of a modem, or between the two lines of `_handleSmsStatusReport`
that ask whether there is an entry and that use it (the notification has a thread of its own); they remain in
`St.sent`, where nothing can find them. -/
namespace Gsm
open M

/-- The object number `i` vanishes. -/
def St.forget (i : Nat) (s : St) : St := { s with sentSms := s.sentSms.filter fun e => e.2 ≠ i }

/-- A history in which objects vanish. -/
inductive WeakStep
  | deed (d : Deed)
  | forget (i : Nat)

/-- The outcomes of what was done, and the modem afterwards. -/
def runForgetful [PyUnicode] (env : Env) : List WeakStep → St → List (Except PyErr Unit) × St
  | [], s => ([], s)
  | .deed d :: hs, s =>
    let r := d.run env s
    let (rs, s') := runForgetful env hs r.2
    (r.1 :: rs, s')
  | .forget i :: hs, s => runForgetful env hs (s.forget i)

/-- modem.py:1012-1013 with what happens between the lines: `if report.reference in self.sentSms:` and
`self.sentSms[report.reference].report = report`. -/
def updateSentWith (between : St → St) (report : Msg) (reference deliveryStatus : Int) : M Unit := do
  let s ← get
  if (dictGet s.sentSms reference).isSome then
    modify between
    let s ← get
    match dictGet s.sentSms reference with
    | none => raise .keyError
    | some i => modify fun s => { s with sent := s.sent.modify i fun x => { x with report := some report } }
  modify fun s => { s with smsTrace := .report reference deliveryStatus :: s.smsTrace }

/-- `_handleSmsStatusReport`, modem.py:1002-1019, the same way. -/
def handleSmsStatusReportWhile (between : St → St) (notificationLine : PyStr) : M Unit := do
  match rxGroups cdsiRegex notificationLine with
  | some [msgMemory, msgIndex] =>
    let report ← readStoredSms msgIndex (some msgMemory)
    deleteStoredSms msgIndex
    match report with
    | .received .. => raise .attributeError
    | .report _ reference _ _ _ deliveryStatus =>
      updateSentWith between report reference deliveryStatus
      let s ← get
      if s.smsStatusReportEvent.isSome then modify fun s => { s with smsStatusReportEvent := some true }
      else callback (.statusReport report)
  | _ => pure ()

end Gsm
