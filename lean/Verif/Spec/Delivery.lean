import Verif.Spec.Reading
import Verif.Spec.SentSms
import Verif.Spec.Notify
import Verif.Spec.Coverage
/-! # Specification: notifications about stored messages and delivery reports -/
namespace Gsm.Spec

/-- The line of a notification (`+CMTI:` or `+CDSI:`, 27.005, 3.4.1): memory and place. -/
def StoredAt (name line mem idx : PyStr) : Prop :=
  ∃ b t, line = name ++ (b ++ (py!"\"" ++ (mem ++ (py!"\"," ++ (idx ++ t))))) ∧ Spaces b ∧ Quotable mem ∧ Digits idx ∧ LineEnd t

/-- The command that selects the memory, unless it is selected. -/
def chooseMemory (s : St) (mem : PyStr) : List PyStr := if s.smsMemReadDelete = some mem then [] else [py!"AT+CPMS=\"" ++ mem ++ py!"\"\r"]

/-- Only what has been written, the delay and the selected memory differ. -/
def OnlyWritten (a b : St) : Prop := ∃ l w m, b = { a with log := l, writeWait := w, smsMemReadDelete := m }

/-- The message at a place is asked for, and the answer means `r`. -/
def Asked (env : Env) (s : St) (mem idx : PyStr) (s1 : St) (r : Except PyErr Msg) : Prop :=
  OnlyWritten s s1 ∧ Transmission env.reply (chooseMemory s mem ++ [py!"AT+CMGR=" ++ idx ++ [13]]) s.log s1.log true ∧
    ∃ ls, env.reply s1.log = .lines ls ∧ Answers s.smsTextMode ls r

/-- The message is asked for and then deleted. -/
def Fetched (env : Env) (s : St) (mem idx : PyStr) (m : Msg) (s2 : St) : Prop :=
  ∃ s1, Asked env s mem idx s1 (.ok m) ∧ OnlyWritten s1 s2 ∧ Transmission env.reply [py!"AT+CMGD=" ++ idx ++ py!",0\r"] s1.log s2.log true

/-- A step of it fails. -/
inductive NotFetched (env : Env) (s : St) (mem idx : PyStr) : PyErr → St → Prop
  | refused {e s1} : OnlyWritten s s1 → Transmission env.reply (chooseMemory s mem ++ [py!"AT+CMGR=" ++ idx ++ [13]]) s.log s1.log false → NotFetched env s mem idx e s1
  | unreadable {e s1} : Asked env s mem idx s1 (.error e) → NotFetched env s mem idx e s1
  | kept {e m s1 s2} : Asked env s mem idx s1 (.ok m) → OnlyWritten s1 s2 →
      Transmission env.reply [py!"AT+CMGD=" ++ idx ++ py!",0\r"] s1.log s2.log false → NotFetched env s mem idx e s2

/-- What a notification about a new message does. -/
inductive MessageEffect (env : Env) (s : St) (line : PyStr) : Except PyErr Unit → St → Prop
  | other : (∀ mem idx, ¬ StoredAt py!"+CMTI:" line mem idx) → MessageEffect env s line (.ok ()) s
  | failed {mem idx e s'} : StoredAt py!"+CMTI:" line mem idx → NotFetched env s mem idx e s' → MessageEffect env s line (.error e) s'
  | passed {mem idx m s'} : StoredAt py!"+CMTI:" line mem idx → Fetched env s mem idx m s' →
      MessageEffect env s line (.ok ()) { s' with callbacks := .smsReceived m :: s'.callbacks }

/-- The report belongs to the message that the table has for its reference. -/
def counted (s : St) (report : Msg) (reference result : Int) : St :=
  { s with sent := s.sent.mapIdx fun i x => if dictGet s.sentSms reference = some i then { x with report := some report } else x
           smsTrace := .report reference result :: s.smsTrace }

/-- A report is fetched from the modem. -/
def ReportFetched (env : Env) (s : St) (line : PyStr) (reference result : Int) (report : Msg) (s' : St) : Prop :=
  ∃ mem idx st number t1 t2, StoredAt py!"+CDSI:" line mem idx ∧ report = .report st reference number t1 t2 result ∧ Fetched env s mem idx report s'

/-- What a notification about a delivery report does: a waiting `sendSms` is woken, otherwise the callback gets the report. -/
inductive ReportEffect (env : Env) (s : St) (line : PyStr) : Except PyErr Unit → St → Prop
  | other : (∀ mem idx, ¬ StoredAt py!"+CDSI:" line mem idx) → ReportEffect env s line (.ok ()) s
  | failed {mem idx e s'} : StoredAt py!"+CDSI:" line mem idx → NotFetched env s mem idx e s' → ReportEffect env s line (.error e) s'
  /-- it was no report: the message is gone -/
  | message {mem idx st number t text smsc s'} : StoredAt py!"+CDSI:" line mem idx → Fetched env s mem idx (.received st number t text smsc) s' →
      ReportEffect env s line (.error .attributeError) s'
  | woken {reference result report s'} : ReportFetched env s line reference result report s' → s.smsStatusReportEvent ≠ none →
      ReportEffect env s line (.ok ()) { counted s' report reference result with smsStatusReportEvent := some true }
  | passed {reference result report s'} : ReportFetched env s line reference result report s' → s.smsStatusReportEvent = none →
      ReportEffect env s line (.ok ()) { counted s' report reference result with callbacks := .statusReport report :: s'.callbacks }

/-- A batch of notifications that brings a report. -/
def BringsReport (env : Env) (s : St) (reference result : Int) (s' : St) : Event → Prop
  | .notify batch => ∃ pre line post report s1, batch = pre ++ line :: post ∧ (∀ l ∈ pre, ∀ d, ¬ Announces (callTable s.callStatusUpdates) l d) ∧
      Announces (callTable s.callStatusUpdates) line .cdsi ∧ ReportFetched env s line reference result report s1 ∧
      s' = { counted s1 report reference result with smsStatusReportEvent := some true }
  | .poll _ => False

/-- Waiting for the first event that brings a report; the last argument tells whether one did. -/
inductive AwaitsReport (env : Env) : St → List Event → St → Bool → Prop
  | over {s} : AwaitsReport env s [] s false
  | told {s e es reference result} : BringsReport env s reference result (e.run env s).2 e → AwaitsReport env s (e :: es) (e.run env s).2 true
  | other {s e es s' r} : (∀ reference result, ¬ BringsReport env s reference result (e.run env s).2 e) →
      AwaitsReport env (e.run env s).2 es s' r → AwaitsReport env s (e :: es) s' r

/-- Everything happens. -/
def happenAll (env : Env) (es : List Event) (s : St) : St := es.foldl (fun s e => (e.run env s).2) s

end Gsm.Spec
