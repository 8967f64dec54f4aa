import Verif.Lemmas.Reading
import Verif.Spec.ExampleModem
/-! # Property C68: reading a stored message -/
namespace Gsm
open M Spec

variable {env : Env}

theorem pyInt_field {d : PyStr} (h : Digits d) : pyInt d = .ok (decVal d : Int) := by
  unfold pyInt
  rw [pyInt_digits h.1 (digits_class h)]

theorem not_deliver {l : PyStr} (h : ∀ a b c, ¬ DeliverHeader l a b c) : rxGroups cmgrTextRegex l = none := by
  cases hg : rxGroups cmgrTextRegex l with
  | none => rfl
  | some g =>
    obtain ⟨a, b, c, _, h'⟩ := deliver_iff.1 hg
    exact absurd h' (h a b c)

theorem not_report {l : PyStr} (h : ∀ a b c d e f, ¬ ReportHeader l a b c d e f) : rxGroups cmgrReportRegex l = none := by
  cases hg : rxGroups cmgrReportRegex l with
  | none => rfl
  | some g =>
    obtain ⟨a, b, c, d, e, f, _, h'⟩ := report_iff.1 hg
    exact absurd h' (h a b c d e f)

theorem not_pdu {l : PyStr} (h : ∀ st, ¬ PduHeader l st) : rxGroups cmgrPduRegex l = none := by
  cases hg : rxGroups cmgrPduRegex l with
  | none => rfl
  | some g =>
    obtain ⟨st, _, _, _, h'⟩ := pdu_fwd hg
    exact absurd h' (h st)

theorem report_fields {l a b c d e f : PyStr} (h : ReportHeader l a b c d e f) : Digits b ∧ Digits f := by
  obtain ⟨_, _, _, _, _, _, _, _, h1, _, _, _, _, _, _, h2, _⟩ := h
  exact ⟨h1, h2⟩

theorem text_run {ls : List PyStr} {r : Except PyErr Msg} (h : AnswersText ls r) : parseCmgrText ls = r := by
  cases h with
  | message hd hn ht =>
    simp only [parseCmgrText, deliver_iff.2 ⟨_, _, _, rfl, hd⟩, (states hn).1, ht, ← pyJoin_eq]
    rfl
  | badState hd hn =>
    simp only [parseCmgrText, deliver_iff.2 ⟨_, _, _, rfl, hd⟩, state_none hn]
    rfl
  | badTime hd hn ht =>
    simp only [parseCmgrText, deliver_iff.2 ⟨_, _, _, rfl, hd⟩, (states hn).1, ht]
    rfl
  | report hd hr hn h1 h2 =>
    have hs := reportState_iff.1 hn
    unfold bareState at hs
    simp only [parseCmgrText, not_deliver hd, report_iff.2 ⟨_, _, _, _, _, _, rfl, hr⟩, hs, pyInt_field (report_fields hr).1, pyInt_field (report_fields hr).2, h1, h2]
    rfl
  | reportBadState hd hr hn =>
    have hs := reportState_none hn
    unfold bareState at hs
    simp only [parseCmgrText, not_deliver hd, report_iff.2 ⟨_, _, _, _, _, _, rfl, hr⟩, hs]
    rfl
  | reportBadSent hd hr hn h1 =>
    have hs := reportState_iff.1 hn
    unfold bareState at hs
    simp only [parseCmgrText, not_deliver hd, report_iff.2 ⟨_, _, _, _, _, _, rfl, hr⟩, hs, pyInt_field (report_fields hr).1, h1]
    rfl
  | reportBadDelivered hd hr hn h1 h2 =>
    have hs := reportState_iff.1 hn
    unfold bareState at hs
    simp only [parseCmgrText, not_deliver hd, report_iff.2 ⟨_, _, _, _, _, _, rfl, hr⟩, hs, pyInt_field (report_fields hr).1, h1, h2]
    rfl
  | other hd hr => simp only [parseCmgrText, not_deliver hd, not_report hr]
  | nothing => rfl

/-- What is understood in text mode. -/
theorem C68_text (ls : List PyStr) (r : Except PyErr Msg) : parseCmgrText ls = r ↔ AnswersText ls r := by
  have exists_ : ∀ ls, AnswersText ls (parseCmgrText ls) := by
    intro ls
    cases ls with
    | nil => exact .nothing
    | cons l rest =>
      unfold parseCmgrText
      dsimp only
      by_cases hd : ∃ a b c, DeliverHeader l a b c
      · obtain ⟨a, b, c, hd⟩ := hd
        rw [deliver_iff.2 ⟨a, b, c, rfl, hd⟩]
        dsimp only
        by_cases hs : ∃ n, (a, n) ∈ stateNames
        · obtain ⟨n, hn⟩ := hs
          rw [(states hn).1]
          cases ht : parseTextModeTimeStr c with
          | error e => exact .badTime hd hn ht
          | ok t =>
            have := AnswersText.message (rest := rest) hd hn ht
            rw [← pyJoin_eq] at this
            exact this
        · rw [state_none fun n hn => hs ⟨n, hn⟩]
          exact .badState hd fun n hn => hs ⟨n, hn⟩
      · have hd' : ∀ a b c, ¬ DeliverHeader l a b c := fun a b c h => hd ⟨a, b, c, h⟩
        rw [not_deliver hd']
        dsimp only
        by_cases hr : ∃ a b c d e f, ReportHeader l a b c d e f
        · obtain ⟨a, b, c, d, e, f, hr⟩ := hr
          rw [report_iff.2 ⟨a, b, c, d, e, f, rfl, hr⟩]
          dsimp only
          by_cases hs : ∃ n, ReportState a n
          · obtain ⟨n, hn⟩ := hs
            have h1 := reportState_iff.1 hn
            unfold bareState at h1
            rw [h1, pyInt_field (report_fields hr).1, pyInt_field (report_fields hr).2]
            cases ht1 : parseTextModeTimeStr d with
            | error x => exact .reportBadSent hd' hr hn ht1
            | ok t1 =>
              cases ht2 : parseTextModeTimeStr e with
              | error x => exact .reportBadDelivered hd' hr hn ht1 ht2
              | ok t2 => exact .report hd' hr hn ht1 ht2
          · have h1 := reportState_none fun n hn => hs ⟨n, hn⟩
            unfold bareState at h1
            rw [h1]
            exact .reportBadState hd' hr fun n hn => hs ⟨n, hn⟩
        · have hr' : ∀ a b c d e f, ¬ ReportHeader l a b c d e f := fun a b c d e f h => hr ⟨a, b, c, d, e, f, h⟩
          rw [not_report hr']
          exact .other hd' hr'
  constructor
  · rintro rfl
    exact exists_ ls
  · exact text_run

theorem pduState_run {l st : PyStr} (h : PduHeader l st) : (pyInt? st).getD 0 = pduState st := by
  obtain ⟨_, _, _, _, _, _, h1, _⟩ := h
  unfold pduState
  split
  · next h0 => subst h0; rfl
  · next h0 => rw [pyInt_digits h0 fun c hc => isD_iff.2 (h1 c hc)]; rfl

theorem pdu_run {ls : List PyStr} {r : Except PyErr Msg} (h : AnswersPdu ls r) : parseCmgrPdu ls = r := by
  cases h with
  | message hh hd =>
    obtain ⟨a, b, hg⟩ := pdu_bwd hh
    simp only [parseCmgrPdu, hg, hd, pduState_run hh]
    rfl
  | report hh hd =>
    obtain ⟨a, b, hg⟩ := pdu_bwd hh
    simp only [parseCmgrPdu, hg, hd, pduState_run hh]
    rfl
  | @outgoing l pdu rest st d hh hd h1 h2 =>
    obtain ⟨a, b, hg⟩ := pdu_bwd hh
    simp only [parseCmgrPdu, hg, hd, pduState_run hh]
    show msgOfPdu _ d = _
    unfold msgOfPdu
    split
    · next h => exact absurd h (h1 _ _ _ _)
    · next h => exact absurd h (h2 _ _ _ _ _)
    · rfl
  | undecodable hh hd =>
    obtain ⟨a, b, hg⟩ := pdu_bwd hh
    simp only [parseCmgrPdu, hg, hd]
    rfl
  | missing hh =>
    obtain ⟨a, b, hg⟩ := pdu_bwd hh
    simp only [parseCmgrPdu, hg]
  | other hh => simp only [parseCmgrPdu, not_pdu hh]
  | nothing => rfl

/-- What is understood in PDU mode. -/
theorem C68_pdu (ls : List PyStr) (r : Except PyErr Msg) : parseCmgrPdu ls = r ↔ AnswersPdu ls r := by
  refine ⟨?_, pdu_run⟩
  rintro rfl
  have key : ∀ {r}, AnswersPdu ls r → AnswersPdu ls (parseCmgrPdu ls) := fun h => by rw [pdu_run h]; exact h
  cases ls with
  | nil => exact key .nothing
  | cons l rest =>
    by_cases hh : ∃ st, PduHeader l st
    · obtain ⟨st, hh⟩ := hh
      cases rest with
      | nil => exact key (.missing hh)
      | cons pdu rest =>
        cases hd : decodeSmsPdu pdu with
        | error e => exact key (.undecodable hh hd)
        | ok d =>
          obtain ⟨smsc, len, body⟩ := d
          cases body with
          | deliver a b c e => exact key (.message hh hd)
          | statusReport a b c e f => exact key (.report hh hd)
          | submit a b c e f => exact key (.outgoing hh hd (by simp) (by simp))
    · exact key (.other fun st h => hh ⟨st, h⟩)

theorem trans_accepted {reply : List PyStr → Reply} {cs a b : List PyStr} {ok : Bool} (h : Transmission reply cs a b ok) (hok : ok = true) (hne : cs ≠ []) :
    Accepted reply b := by
  induction h with
  | done => exact absurd rfl hne
  | stop => cases hok
  | @next c cs old k log ok h1 h2 h3 h4 ih =>
    cases cs with
    | nil => cases h4; exact h3
    | cons d cs => exact ih hok (by simp)

/-- Reading a message selects the memory, if necessary, asks for the message, and returns what the answer
means; nothing but the log, the delay and the selected memory changes. -/
theorem C68_read (index : PyStr) (memory : Option PyStr) (s : St) : ∃ ok s1, LogMem s s1 ∧
    Transmission env.reply (selectCommands s memory ++ [py!"AT+CMGR=" ++ index ++ [13]]) s.log s1.log ok ∧
    ((ok = true ∧ ∃ ls r, env.reply s1.log = .lines ls ∧ Answers s.smsTextMode ls r ∧ readStoredSms index memory env s = (r, s1)) ∨
      (ok = false ∧ ∃ e, readStoredSms index memory env s = (.error e, s1))) := by
  obtain ⟨ok, s1, h1, h2, h3⟩ := read_trans (env := env) index memory s
  refine ⟨ok, s1, h1, h2, ?_⟩
  rcases h3 with ⟨rfl, h3⟩ | h3
  · refine .inl ⟨rfl, ?_⟩
    obtain ⟨ls, hl⟩ : ∃ ls, env.reply s1.log = .lines ls := by
      obtain ⟨ls, _, h, _⟩ := trans_accepted h2 rfl (by simp)
      exact ⟨ls, h⟩
    refine ⟨ls, parseCmgr s.smsTextMode ls, hl, ?_, by rw [h3]; simp [lastAnswer, hl]⟩
    unfold parseCmgr Answers
    split
    · exact (C68_text _ _).1 rfl
    · exact (C68_pdu _ _).1 rfl
  · exact .inr h3

/-- Deleting a message selects the memory, if necessary, and writes the command for it; nothing but the log, the delay and the selected memory changes. -/
theorem C68_delete (index : PyStr) (memory : Option PyStr) (s : St) : ∃ ok s1, LogMem s s1 ∧
    Transmission env.reply (selectCommands s memory ++ [py!"AT+CMGD=" ++ index ++ py!",0\r"]) s.log s1.log ok ∧
    ((ok = true ∧ deleteStoredSms index memory env s = (.ok (), s1)) ∨ (ok = false ∧ ∃ e, deleteStoredSms index memory env s = (.error e, s1))) := by
  have h := delete_trans (env := env) index memory s
  rwa [show cmgdCmd index ++ [13] = py!"AT+CMGD=" ++ index ++ py!",0\r" by simp [cmgdCmd]] at h

/-- Deleting many messages: the kinds are 1 to 4. -/
theorem C68_delete_multiple {kind : Int} (h1 : 1 ≤ kind) (h4 : kind ≤ 4) (memory : Option PyStr) (s : St) : ∃ ok s1, LogMem s s1 ∧
    Transmission env.reply (selectCommands s memory ++ [py!"AT+CMGD=1," ++ intStr kind ++ [13]]) s.log s1.log ok ∧
    ((ok = true ∧ deleteMultipleStoredSms kind memory env s = (.ok (), s1)) ∨ (ok = false ∧ ∃ e, deleteMultipleStoredSms kind memory env s = (.error e, s1))) := by
  obtain ⟨ok, s1, a1, a2, a3⟩ := setMemory_trans (env := env) memory s
  unfold deleteMultipleStoredSms
  rw [if_pos ⟨by omega, h4⟩, run_bind]
  rcases a3 with ⟨rfl, a3⟩ | ⟨rfl, e, a3⟩
  · rw [a3]
    dsimp only
    rw [run_bind]
    obtain ⟨ok, s2, k1, k2, k3⟩ := write_trans (env := env) (py!"AT+CMGD=1," ++ intStr kind) [13] s1
    refine ⟨ok, s2, a1.trans k1.logMem, a2.append rfl k2, ?_⟩
    rcases k3 with ⟨rfl, k3⟩ | ⟨rfl, e, k3⟩
    · exact .inl ⟨rfl, by rw [k3]; rfl⟩
    · exact .inr ⟨rfl, e, by rw [k3]⟩
  · rw [a3]
    exact ⟨false, s1, a1, a2.stop_append _ rfl, .inr ⟨rfl, e, rfl⟩⟩

/-- Any other kind is refused before anything is written. -/
theorem C68_delete_kind {kind : Int} (h : kind < 1 ∨ 4 < kind) (memory : Option PyStr) (s : St) :
    deleteMultipleStoredSms kind memory env s = (.error .valueError, s) := by
  unfold deleteMultipleStoredSms
  rw [if_neg (by omega)]
  rfl

/-! ### Examples -/

example : (deleteMultipleStoredSms 4 (some py!"SM") goodModem {}).2.log.reverse = [py!"AT+CPMS=\"SM\"\r", py!"AT+CMGD=1,4\r"] := by decide +kernel
example : (deleteStoredSms py!"3" none goodModem {}).2.log.reverse = [py!"AT+CMGD=3,0\r"] := by decide +kernel

example : parseCmgrText [py!"+CMGR: \"REC READ\",\"+2782\",,\"07/04/12,23:25:42+08\"", py!"Hello", py!"world", py!"OK"] =
    .ok (.received 1 (some py!"+2782") ⟨2007, 4, 12, 23, 25, 42, 0, some ⟨0, 7200, 0⟩⟩ (py!"Hello" ++ [10] ++ py!"world") none) := by decide +kernel

/-- A report without state, as some modems send it. -/
example : parseCmgrText [py!"+CMGR: ,6,20,\"0870000000\",129,\"13/04/29,19:51:48+08\",\"13/04/29,19:51:55+08\",0", py!"OK"] =
    .ok (.report 0 20 (some py!"0870000000") ⟨2013, 4, 29, 19, 51, 48, 0, some ⟨0, 7200, 0⟩⟩ ⟨2013, 4, 29, 19, 51, 55, 0, some ⟨0, 7200, 0⟩⟩ 0) := by decide +kernel

example : ReportHeader py!"+CMGR: ,6,20,\"0870\",129,\"a\",\"b\",0" [] py!"20" py!"0870" py!"a" py!"b" py!"0" :=
  ⟨py!"6", [34], [34], py!"129", [], by decide, by simp, by simp [Digits], by simp [Digits], .inr rfl, .inr rfl, by decide, by decide, by simp [Quotable], by simp [Quotable],
    by simp [Digits], .inl rfl⟩

/-- The place is empty: the modem only says OK. -/
theorem C68_empty (textMode : Bool) : ∀ r, Answers textMode [py!"OK"] r ↔ r = .error (.command .command none) := by
  intro r
  cases textMode
  · exact (C68_pdu _ _).symm.trans (by rw [show parseCmgrPdu [py!"OK"] = .error (.command .command none) by decide +kernel]; exact eq_comm)
  · exact (C68_text _ _).symm.trans (by rw [show parseCmgrText [py!"OK"] = .error (.command .command none) by decide +kernel]; exact eq_comm)

/-- A message with a line "OK" is read completely (unlike in a listing). -/
example : (parseCmgrText [py!"+CMGR: \"REC READ\",\"+2782\",,\"07/04/12,23:25:42+08\"", py!"OK", py!"OK"]).map (fun m => match m with
    | .received _ _ _ text _ => some text | _ => none) = .ok (some py!"OK") := by decide +kernel

end Gsm
