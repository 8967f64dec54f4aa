import Verif.Lemmas.Delivery
import Verif.Props.ModemDial
import Verif.Props.ModemSend
/-! # Property C71: notifications about stored messages, and waiting for a delivery report -/
namespace Gsm
open M Spec

variable {env : Env}

/-- What a notification about a message does, whatever the line and the answers are. -/
theorem C71_message (line : PyStr) (s : St) : MessageEffect env s line (handleSmsReceived line env s).1 (handleSmsReceived line env s).2 := received_effect line s

/-- What a notification about a report does, whatever the line and the answers are. -/
theorem C71_report (line : PyStr) (s : St) : ReportEffect env s line (handleSmsStatusReport line env s).1 (handleSmsStatusReport line env s).2 := report_effect line s

/-- The line determines the memory and the place. -/
theorem C71_place {name line mem idx mem' idx' : PyStr} (h : StoredAt name line mem idx) (h' : StoredAt name line mem' idx') : mem = mem' ∧ idx = idx' := by
  have h1 := stored_iff.2 ⟨mem, idx, rfl, h⟩
  rw [stored_iff.2 ⟨mem', idx', rfl, h'⟩] at h1
  simpa [eq_comm] using h1

/-- A callback gets a message only if it has been deleted from the modem. -/
theorem C71_passed_deleted {line : PyStr} {s : St} (h : (handleSmsReceived line env s).2.callbacks ≠ s.callbacks) :
    ∃ mem idx m s', StoredAt py!"+CMTI:" line mem idx ∧ Fetched env s mem idx m s' ∧ handleSmsReceived line env s = (.ok (), { s' with callbacks := .smsReceived m :: s.callbacks }) := by
  have he := C71_message (env := env) line s
  cases hr : handleSmsReceived line env s with
  | mk r s2 =>
    rw [hr] at he h
    cases he with
    | other => exact absurd rfl h
    | failed _ h2 =>
      obtain ⟨_, _, _, rfl⟩ := NotFetched.only h2
      exact absurd rfl h
    | passed h1 h2 =>
      refine ⟨_, _, _, _, h1, h2, ?_⟩
      obtain ⟨_, _, _, rfl⟩ := Fetched.only h2
      rfl

/-! ### Waiting -/

theorem brings_trace {s s' : St} {e : Event} {r ds : Int} (h : BringsReport env s r ds s' e) : s'.smsTrace = .report r ds :: s.smsTrace ∧ s'.smsStatusReportEvent = some true := by
  cases e with
  | poll => exact h.elim
  | notify batch =>
    obtain ⟨_, _, _, _, s1, _, _, _, ⟨_, _, _, _, _, _, _, _, hf⟩, rfl⟩ := h
    obtain ⟨_, _, _, rfl⟩ := Fetched.only hf
    exact ⟨rfl, rfl⟩

theorem not_brings {s s' : St} {e : Event} (h : reportState s' = reportState s) : ∀ r ds, ¬ BringsReport env s r ds s' e := by
  intro r ds hb
  have h1 := (brings_trace hb).1
  rw [show s'.smsTrace = s.smsTrace from congrArg Prod.snd h] at h1
  have := congrArg List.length h1
  simp at this

theorem event_report {s : St} (h : s.smsStatusReportEvent = some false) (e : Event) :
    (∃ r ds, BringsReport env s r ds (e.run env s).2 e) ∨ reportState (e.run env s).2 = reportState s := by
  cases e with
  | poll k => exact .inr (rf_poll k s)
  | notify batch =>
    show _ ∨ reportState (handleNotification batch env s).2 = reportState s
    rcases first_recognised (callTable s.callStatusUpdates) batch with h0 | ⟨pre, line, post, d, rfl, h1, h2⟩
    · exact .inr (by rw [C43_none h0])
    · have hrun : ((Event.notify (pre ++ line :: post)).run env s).2 = (handlerOf (pre ++ line :: post) line d env s).2 := by
        show (handleNotification _ env s).2 = _
        rw [C43_first h1 h2]
      rw [C43_first h1 h2, hrun]
      cases d with
      | ring => exact .inr ((rf_incoming _).run s).2
      | cmti => exact .inr ((rf_received _).run s).2
      | cusd => exact .inr ((rf_ussd _).run s).2
      | call hh g => exact .inr ((rf_runCallHandler _ _).run s).2
      | cdsi =>
        simp only [handlerOf]
        have he := C71_report (env := env) line s
        generalize handleSmsStatusReport line env s = x at he
        obtain ⟨r, s2⟩ := x
        dsimp only at he ⊢
        cases he with
        | other => exact .inr rfl
        | failed _ h3 =>
          obtain ⟨_, _, _, rfl⟩ := NotFetched.only h3
          exact .inr rfl
        | message _ h3 =>
          obtain ⟨_, _, _, rfl⟩ := Fetched.only h3
          exact .inr rfl
        | woken h3 _ => exact .inl ⟨_, _, pre, line, post, _, _, rfl, h1, h2, h3, rfl⟩
        | passed _ h3 => rw [h] at h3; cases h3

theorem event_runs (e : Event) (s : St) : e.run env s = (.ok (), (e.run env s).2) := by
  cases e with
  | notify => rfl
  | poll k => simp only [Event.run]; split; rfl; split <;> rfl

theorem await_all : ∀ (es : List Event) (s : St), awaitEvent (fun _ => false) es env s = (.ok false, happenAll env es s)
  | [], s => rfl
  | e :: es, s => by
    simp only [awaitEvent, run_bind, run_get]
    rw [if_neg (by simp), run_bind, event_runs]
    exact await_all es _

theorem await_report : ∀ (es : List Event) {s : St}, s.smsStatusReportEvent = some false →
    ∃ s' told, AwaitsReport env s es s' told ∧ awaitEvent (fun s => s.smsStatusReportEvent = some true) es env s = (.ok told, s')
  | [], s, h => ⟨s, false, .over, by simp [awaitEvent, run_bind, run_get, run_pure, h]⟩
  | e :: es, s, h => by
    have hstep : awaitEvent (fun s => s.smsStatusReportEvent = some true) (e :: es) env s = awaitEvent (fun s => s.smsStatusReportEvent = some true) es env (e.run env s).2 := by
      simp only [awaitEvent, run_bind, run_get, h]
      rw [if_neg (by simp), run_bind, event_runs]
    rw [hstep]
    rcases event_report (env := env) h e with ⟨r, ds, h1⟩ | h1
    · refine ⟨_, true, .told h1, ?_⟩
      have h2 := (brings_trace h1).2
      cases es with
      | nil => simp [awaitEvent, run_bind, run_get, run_pure, h2]
      | cons e' es => simp [awaitEvent, run_bind, run_get, run_pure, h2]
    · obtain ⟨s', told, h3, h4⟩ := await_report es ((congrArg Prod.fst h1).trans h)
      exact ⟨s', told, .other (not_brings h1) h3, h4⟩

/-- `sendSms` with `waitForDeliveryReport` ends with the first report that is fetched after it began to wait, whichever message it is about. -/
theorem C71_wait [PyUnicode] (destination text : PyStr) (flash : Bool) (early during : List Event) (s : St) :
    (∀ e s1, sendSms destination text flash env s = (.error e, s1) → sendSmsWait destination text flash early during env s = (.error e, s1)) ∧
    (∀ i s1, sendSms destination text flash env s = (.ok i, s1) → ∃ s2 told,
      AwaitsReport env { happenAll env early s1 with smsStatusReportEvent := some false } during s2 told ∧
      sendSmsWait destination text flash early during env s = (if told then .ok i else .error (.timeout none), { s2 with smsStatusReportEvent := none })) := by
  constructor
  · intro e s1 h
    unfold sendSmsWait
    rw [run_bind, h]
  · intro i s1 h
    obtain ⟨s2, told, h1, h2⟩ := await_report (env := env) during (s := { happenAll env early s1 with smsStatusReportEvent := some false }) rfl
    refine ⟨s2, told, h1, ?_⟩
    unfold sendSmsWait
    simp only [run_bind, h, await_all, run_modify, h2]
    cases told <;> rfl

/-- The events determine how the wait ends. -/
theorem C71_wait_unique {s s1 s2 : St} {es : List Event} {a b : Bool} (h : AwaitsReport env s es s1 a) (h' : AwaitsReport env s es s2 b) : s1 = s2 ∧ a = b := by
  induction h with
  | over => cases h'; exact ⟨rfl, rfl⟩
  | told h1 =>
    cases h' with
    | told => exact ⟨rfl, rfl⟩
    | other h2 => exact absurd h1 (h2 _ _)
  | other h1 _ ih =>
    cases h' with
    | told h2 => exact absurd h2 (h1 _ _)
    | other _ h2 => exact ih h2

/-! ### Examples -/

example : StoredAt py!"+CDSI:" py!"+CDSI: \"SM\",3" py!"SM" py!"3" := ⟨py!" ", [], rfl, by simp [Spaces], by simp [Quotable], by simp [Digits], .inl rfl⟩

/-- A report wakes the wait and is stored with its message. -/
example : (handleSmsStatusReport py!"+CDSI: \"SM\",3" (reportModem py!"5") { smsTextMode := true, smsStatusReportEvent := some false }).2.smsStatusReportEvent = some true := by decide +kernel
example : (handleSmsStatusReport py!"+CDSI: \"SM\",3" (reportModem py!"5") { smsTextMode := true, smsStatusReportEvent := some false }).2.log =
    [py!"AT+CMGD=3,0\r", py!"AT+CMGR=3\r", py!"AT+CPMS=\"SM\"\r"] := by decide +kernel
example : (handleSmsStatusReport py!"+CDSI: \"SM\",3" (reportModem py!"5") { smsTextMode := true }).2.callbacks.length = 1 := by decide +kernel
example : (handleSmsReceived py!"+CMTI: SM,3" (reportModem py!"5") { smsTextMode := true }).2.log = [] := by decide +kernel

attribute [local instance] asciiUnicode in
example : (sendSmsWait py!"12" py!"Hi" false [] [.poll 0, .notify [py!"+CMTI: SM,3"], reportEvent] (reportModem py!"5") { smsTextMode := true }).1 = .ok 0 := by decide +kernel
attribute [local instance] asciiUnicode in
example : (sendSmsWait py!"12" py!"Hi" false [] [.poll 0, .notify [py!"+CDSI: SM,3"]] (reportModem py!"5") { smsTextMode := true }).1 = .error (.timeout none) := by decide +kernel

attribute [local instance] asciiUnicode in
/-- A batch with an announcement before the report: the report stays in the modem, and the wait times out. -/
theorem C71_hidden_report : (sendSmsWait py!"12" py!"Hi" false [] [.notify [py!"+CMTI: \"SM\",x", py!"+CDSI: \"SM\",3"]] (reportModem py!"5") { smsTextMode := true }).1 =
    .error (.timeout none) := by decide +kernel

end Gsm
