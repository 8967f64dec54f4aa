import Verif.Lemmas.Forget
import Verif.Lemmas.Delivery
import Verif.Props.ModemSend
/-! # C95: forgetting a sent message changes nothing else -/
namespace Gsm
open M Spec

variable {env : Env}

/-- Whatever is done with the modem and whatever messages vanish in between: the outcomes are those without the forgetting, and
so is the modem afterwards, but for the entries and reports of the messages that were forgotten. -/
theorem C95_unchanged [PyUnicode] (hs : List WeakStep) {s : St} (h : OneEntry s) :
    (runForgetful env hs s).1 = (runDeeds env (deedsLeft hs) s).1 ∧ SameBut (forgottenIn hs) (runForgetful env hs s).2 (runDeeds env (deedsLeft hs) s).2 := by
  obtain ⟨h1, h2⟩ := forgetful_alike (F := forgottenIn hs) (env := env) hs s s ⟨⟨rfl, rfl, fun _ _ => rfl, fun _ => .inl rfl⟩, h⟩ fun _ h => h
  exact ⟨h1, h2.1⟩

/-- The examples: two messages with the same reference, the first one forgotten, and a report. -/
def twoAndReport : List WeakStep :=
  [.deed (.op (.send py!"12" py!"Hi" false)), .deed (.op (.send py!"13" py!"Hi" false)), .forget 0, .deed (.op (.event reportEvent)), .forget 1]

attribute [local instance] asciiUnicode in
example : ((runForgetful (reportModem py!"5") twoAndReport { smsTextMode := true }).2.sent.map fun x => (x.number, x.status)) = [(py!"12", 0), (py!"13", 1)] ∧
    (runForgetful (reportModem py!"5") twoAndReport { smsTextMode := true }).2.sentSms = [] ∧ deedsLeft twoAndReport =
      [.op (.send py!"12" py!"Hi" false), .op (.send py!"13" py!"Hi" false), .op (.event reportEvent)] ∧ forgottenIn twoAndReport = [0, 1] :=
  ⟨by decide +kernel, by decide +kernel, rfl, rfl⟩
attribute [local instance] asciiUnicode in
/-- A report for a forgotten message is told all the same. -/
example : (runForgetful (reportModem py!"5") [.deed (.op (.send py!"12" py!"Hi" false)), .forget 0, .deed (.op (.event reportEvent))] { smsTextMode := true }).2.callbacks.length = 1 ∧
    (runForgetful (reportModem py!"5") [.deed (.op (.send py!"12" py!"Hi" false)), .forget 0, .deed (.op (.event reportEvent))] { smsTextMode := true }).2.sent.map (·.status) = [0] ∧
    (runDeeds (reportModem py!"5") [.op (.send py!"12" py!"Hi" false), .op (.event reportEvent)] { smsTextMode := true }).2.sent.map (·.status) = [1] := by decide +kernel

/-- There is never more than one entry for a reference. -/
theorem C95_one_entry [PyUnicode] : ∀ (hs : List WeakStep) {s : St}, OneEntry s → OneEntry (runForgetful env hs s).2
  | [], _, h => h
  | .deed d :: hs, _, h => C95_one_entry hs (oneEntry_deed d h)
  | .forget _ :: hs, _, h => C95_one_entry hs ((List.filter_sublist.map _).nodup h)

/-- So the commands, the callbacks and the calls do not depend on it. -/
theorem C95_told [PyUnicode] (hs : List WeakStep) {s : St} (h : OneEntry s) :
    (runForgetful env hs s).2.log = (runDeeds env (deedsLeft hs) s).2.log ∧ (runForgetful env hs s).2.callbacks = (runDeeds env (deedsLeft hs) s).2.callbacks ∧
    (runForgetful env hs s).2.calls = (runDeeds env (deedsLeft hs) s).2.calls := by
  have := (C95_unchanged (env := env) hs h).2.rest
  exact ⟨(congrArg St.log this : _), (congrArg St.callbacks this : _), (congrArg St.calls this : _)⟩

theorem runDeeds_ops [PyUnicode] : ∀ (hs : List WeakStep) (s : St), (∀ d ∈ deedsLeft hs, ∃ o, d = .op o) →
    ∃ ops, (runDeeds env (deedsLeft hs) s).2 = runOps env ops s
  | [], _, _ => ⟨[], rfl⟩
  | .forget _ :: hs, s, h => runDeeds_ops hs s h
  | .deed d :: hs, s, h => by
    obtain ⟨o, rfl⟩ := h d List.mem_cons_self
    obtain ⟨ops, h1⟩ := runDeeds_ops hs (o.run env s).2 fun d hd => h d (List.mem_cons_of_mem _ hd)
    exact ⟨o :: ops, h1⟩

/-- A message that has not been forgotten has the status that belongs to it. -/
theorem C95_status [PyUnicode] {s : St} (hf : Fresh s) (hs : List WeakStep) (ho : ∀ d ∈ deedsLeft hs, ∃ o, d = .op o) {i : Nat} (hi : i ∉ forgottenIn hs) :
    ((runForgetful env hs s).2.sent[i]?).map (fun x => (x.reference, x.status)) = (sentMessages (runForgetful env hs s).2.smsTrace.reverse)[i]? := by
  have h0 : OneEntry s := by unfold OneEntry; rw [hf.2.1]; exact List.nodup_nil
  have h1 := (C95_unchanged (env := env) hs h0).2
  obtain ⟨ops, h2⟩ := runDeeds_ops (env := env) hs s ho
  have h3 : (runForgetful env hs s).2.smsTrace = (runDeeds env (deedsLeft hs) s).2.smsTrace := (congrArg St.smsTrace h1.rest : _)
  rw [h3, h1.reports i hi, h2, ← C39_status hf ops, List.getElem?_map]

/-! ### Between the question and the use -/

/-- With nothing in between it is the method. -/
theorem C95_atomic (line : PyStr) (s : St) : handleSmsStatusReportWhile id line env s = handleSmsStatusReport line env s := by
  have h : ∀ m r d, updateSentWith id m r d = updateSent m r d := fun m r d => by
    funext env s
    unfold updateSentWith updateSent
    rw [run_bind, run_get]
    cases hg : dictGet s.sentSms r with
    | none => simp [hg, run_modify]
    | some i => simp [hg, run_bind, run_modify, run_get]
  unfold handleSmsStatusReportWhile handleSmsStatusReport
  simp only [h]
  rfl

/-- A message may vanish in between: then everything is as usual, unless it is the message that the report is for. In this case the handler
ends with a `KeyError`, after the report has been deleted from the modem. -/
theorem C95_race (line : PyStr) (i : Nat) {s : St} (h : OneEntry s) :
    handleSmsStatusReportWhile (St.forget i) line env s = handleSmsStatusReport line env s ∨
    handleSmsStatusReportWhile (St.forget i) line env s = ((handleSmsStatusReport line env s).1, (handleSmsStatusReport line env s).2.forget i) ∨
    ∃ reference result report s', ReportFetched env s line reference result report s' ∧ dictGet s.sentSms reference = some i ∧
      handleSmsStatusReportWhile (St.forget i) line env s = (.error .keyError, s'.forget i) := by
  cases hg : rxGroups cdsiRegex line with
  | none => exact .inl (by simp only [handleSmsStatusReport, handleSmsStatusReportWhile, hg])
  | some g =>
    obtain ⟨mem, idx, rfl, hs⟩ := stored_iff.1 (by rw [← cdsi_rx]; exact hg)
    simp only [handleSmsStatusReport, handleSmsStatusReportWhile, hg]
    rcases fetch_run (env := env) mem idx s with ⟨e, s', h1, h2⟩ | ⟨m, s', h1, h2⟩
    · exact .inl (by rw [h2, h2])
    · rw [h2, h2]
      cases m with
      | received st number t text smsc => exact .inl rfl
      | report st r number t1 t2 ds =>
        have hsent : s'.sentSms = s.sentSms := by obtain ⟨_, _, _, rfl⟩ := Fetched.only h1; rfl
        have hf : ReportFetched env s line r ds (.report st r number t1 t2 ds) s' := ⟨mem, idx, st, number, t1, t2, hs, rfl, h1⟩
        have hfor : dictGet (s'.forget i).sentSms r = if dictGet s.sentSms r = some i then none else dictGet s.sentSms r := by
          show dictGet (s'.sentSms.filter fun e => e.2 ≠ i) r = _
          rw [hsent, dictGet_forget h]
        dsimp only
        unfold updateSentWith updateSent
        cases hd : dictGet s.sentSms r with
        | none =>
          left
          simp [run_bind, run_get, run_modify, run_pure, hsent, hd]
        | some j =>
          by_cases hij : j = i
          · subst hij
            right; right
            refine ⟨r, ds, _, s', hf, hd, ?_⟩
            simp [run_bind, run_get, run_modify, run_raise, hsent, hd, hfor]
          · right; left
            simp [run_bind, run_get, run_modify, run_raise, hsent, hd, hfor, hij]
            simp only [← hsent]
            by_cases hq : s'.smsStatusReportEvent.isSome = true
            · rw [if_pos hq, if_pos (show (St.forget i s').smsStatusReportEvent.isSome = true from hq)]; rfl
            · rw [if_neg hq, if_neg (show ¬ (St.forget i s').smsStatusReportEvent.isSome = true from hq)]; rfl

attribute [local instance] asciiUnicode in
/-- The report is deleted from the modem, and nobody is told. -/
theorem C95_report_lost :
    (handleSmsStatusReportWhile (St.forget 0) py!"+CDSI: \"SM\",3" (reportModem py!"5") (runOps (reportModem py!"5") [.send py!"12" py!"Hi" false] { smsTextMode := true })).1 =
      .error .keyError ∧
    (handleSmsStatusReportWhile (St.forget 0) py!"+CDSI: \"SM\",3" (reportModem py!"5") (runOps (reportModem py!"5") [.send py!"12" py!"Hi" false] { smsTextMode := true })).2.callbacks = [] ∧
    (handleSmsStatusReportWhile (St.forget 0) py!"+CDSI: \"SM\",3" (reportModem py!"5") (runOps (reportModem py!"5") [.send py!"12" py!"Hi" false] { smsTextMode := true })).2.log.head? =
      some py!"AT+CMGD=3,0\r" ∧
    (handleSmsStatusReport py!"+CDSI: \"SM\",3" (reportModem py!"5") (runOps (reportModem py!"5") [.send py!"12" py!"Hi" false] { smsTextMode := true })).2.callbacks.length = 1 := by
  decide +kernel

/-- Then neither a waiting `sendSms` nor the callback is told, and the report is gone. -/
theorem C95_race_silent {line : PyStr} {i : Nat} {s s' : St} {reference result : Int} {report : Msg} (h : ReportFetched env s line reference result report s') :
    (s'.forget i).callbacks = s.callbacks ∧ (s'.forget i).smsStatusReportEvent = s.smsStatusReportEvent ∧ (s'.forget i).sent = s.sent := by
  obtain ⟨mem, idx, st, number, t1, t2, -, -, h1⟩ := h
  obtain ⟨_, _, _, rfl⟩ := Fetched.only h1
  exact ⟨rfl, rfl, rfl⟩

end Gsm
