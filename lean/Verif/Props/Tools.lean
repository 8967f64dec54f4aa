import Verif.Spec.Tools
import Verif.Lemmas.Tools
import Verif.Lemmas.Queries
import Verif.Props.ModemQueries
import Verif.Spec.ExampleModem
/-! # C75: the command line tools -/
namespace Gsm
open M Spec

variable {env : Env}

/-! ### sendsms.py -/

/-- Events by themselves send nothing. -/
theorem event_taken (e : Event) (s : St) : taken (e.run env s).2.smsTrace = taken s.smsTrace := by
  cases e with
  | poll k => exact congrArg (fun x => taken x.2) (rf_poll k s)
  | notify batch =>
    show taken (handleNotification batch env s).2.smsTrace = _
    rcases first_recognised (callTable s.callStatusUpdates) batch with h0 | ⟨pre, line, post, d, rfl, h1, h2⟩
    · rw [C43_none h0]
    · rw [C43_first h1 h2]
      cases d with
      | ring => exact congrArg (fun x => taken x.2) ((rf_incoming _).run s).2
      | cmti => exact congrArg (fun x => taken x.2) ((rf_received _).run s).2
      | cusd => exact congrArg (fun x => taken x.2) ((rf_ussd _).run s).2
      | call hh g => exact congrArg (fun x => taken x.2) ((rf_runCallHandler _ _).run s).2
      | cdsi =>
        simp only [handlerOf]
        have he := C71_report (env := env) line s
        generalize handleSmsStatusReport line env s = x at he
        obtain ⟨r, s2⟩ := x
        dsimp only at he ⊢
        cases he with
        | other => rfl
        | failed _ h3 => obtain ⟨_, _, _, rfl⟩ := NotFetched.only h3; rfl
        | message _ h3 => obtain ⟨_, _, _, rfl⟩ := Fetched.only h3; rfl
        | woken h3 _ => obtain ⟨_, _, _, _, _, _, _, _, h3⟩ := h3; obtain ⟨_, _, _, rfl⟩ := Fetched.only h3; rfl
        | passed h3 _ => obtain ⟨_, _, _, _, _, _, _, _, h3⟩ := h3; obtain ⟨_, _, _, rfl⟩ := Fetched.only h3; rfl

theorem happen_taken : ∀ (es : List Event) (s : St), taken (happenAll env es s).smsTrace = taken s.smsTrace
  | [], _ => rfl
  | e :: es, s => (happen_taken es (e.run env s).2).trans (event_taken e s)

theorem await_taken {s s' : St} {es : List Event} {told : Bool} (h : AwaitsReport env s es s' told) : taken s'.smsTrace = taken s.smsTrace := by
  induction h with
  | over => rfl
  | told => exact event_taken _ _
  | other _ _ ih => exact ih.trans (event_taken _ _)

/-- A message that was sent, and what was waited for. -/
theorem toolSend_ok [PyUnicode] {a : SendArgs} {text : PyStr} {s s3 : St} {i : Nat} (h : toolSend a text env s = (.ok i, s3)) :
    ∃ s', sendSms a.destination text false env s = (.ok i, s') ∧ taken s3.smsTrace = taken s'.smsTrace ∧ (a.deliver = false → s3 = s') := by
  unfold toolSend at h
  cases hd : a.deliver with
  | false =>
    rw [hd] at h
    exact ⟨s3, h, rfl, fun _ => rfl⟩
  | true =>
    rw [hd, if_pos rfl] at h
    have hw := C71_wait (env := env) a.destination text false a.early a.during s
    cases hs : sendSms a.destination text false env s with
    | mk r s' =>
      cases r with
      | error e => rw [hw.1 e s' hs] at h; cases h
      | ok j =>
        obtain ⟨s2, told, h1, h2⟩ := hw.2 j s' hs
        rw [h2] at h
        cases told with
        | false => cases h
        | true =>
          cases h
          exact ⟨s', rfl, (await_taken h1).trans (happen_taken _ _), fun h => (nomatch h)⟩

/-- The state of the modem object at the end of a successful run. -/
theorem sendsms_sent [PyUnicode] {a : SendArgs} {s : St} (h : (sendsms env a s).exit = .status 0) :
    ∃ text s1 v s2 i s3 x, a.port ≠ none ∧ a.typed = some text ∧ connect a.pin env s = (.ok (), s1) ∧ waitForNetworkCoverage a.rounds env s1 = (.ok v, s2) ∧
      toolSend a text env (happenAll env a.meanwhile s2) = (.ok i, s3) ∧ s3.sent[i]? = some x ∧ (sendsms env a s).st = closed s3 ∧
      (sendsms env a s).out.getLast? = some (sentNote x) ∧ (sendsms env a s).err = [] := by
  unfold sendsms at h ⊢
  cases hp : a.port with
  | none => rw [hp] at h; cases h
  | some port =>
    rw [hp] at h
    dsimp only at h ⊢
    cases hc : connect a.pin env s with
    | mk r s1 =>
      rw [hc] at h
      cases r with
      | error e => dsimp only at h; split at h <;> cases h
      | ok u =>
        dsimp only at h ⊢
        unfold sendsmsCoverage at h ⊢
        cases hn : waitForNetworkCoverage a.rounds env s1 with
        | mk r s2 =>
          rw [hn] at h
          cases r with
          | error e => dsimp only at h; split at h <;> rename_i h1 <;> cases h1 <;> cases h
          | ok v =>
            dsimp only at h ⊢
            unfold sendsmsType at h ⊢
            rw [await_all] at h ⊢
            cases ht : a.typed with
            | none => rw [ht] at h; cases h
            | some text =>
              rw [ht] at h
              dsimp only at h ⊢
              unfold sendsmsSend at h ⊢
              cases hs : toolSend a text env (happenAll env a.meanwhile s2) with
              | mk r s3 =>
                rw [hs] at h
                cases r with
                | error e => dsimp only at h; split at h <;> rename_i h1 <;> cases h1 <;> cases h
                | ok i =>
                  dsimp only at h ⊢
                  cases hx : s3.sent[i]? with
                  | none => rw [hx] at h; cases h
                  | some x => exact ⟨text, s1, v, s2, i, s3, x, by simp, rfl, rfl, hn, hs, hx, rfl, by simp, rfl⟩

theorem taken_append (a b : List SmsEvent) : taken (a ++ b) = taken a + taken b := by
  induction a with
  | nil => simp [taken]
  | cons e a ih => cases e <;> (simp [taken, ih]; try omega)

theorem taken_reverse (a : List SmsEvent) : taken a.reverse = taken a := by
  induction a with
  | nil => rfl
  | cons e a ih => cases e <;> simp [taken, taken_append, ih]

theorem taken_messages (a : List SmsEvent) : (sentMessages a).length = taken a := by
  induction a with
  | nil => rfl
  | cons e a ih => cases e <;> simp [taken, sentMessages, ih]

theorem taken_none {a : List SmsEvent} (h : taken a = 0) : lastReference a = none := by
  induction a with
  | nil => rfl
  | cons e a ih =>
    cases e with
    | sent r => simp [taken] at h
    | report r d => exact ih h

/-- `sendSms` has an effect on the record exactly when it succeeds. -/
theorem send_trace [PyUnicode] (d t : PyStr) (f : Bool) (s : St) :
    (∃ e s', sendSms d t f env s = (.error e, s') ∧ s'.smsTrace = s.smsTrace) ∨
    (∃ r s', sendSms d t f env s = (.ok s.sent.length, s') ∧ s'.smsTrace = .sent r :: s.smsTrace ∧ s'.sent.length = s.sent.length + 1) := by
  have spec : ∀ {commands : List PyStr}, SendSpec env commands d t s (sendSms d t f env s).2 (sendSms d t f env s).1 →
      (∃ e s', sendSms d t f env s = (.error e, s') ∧ s'.smsTrace = s.smsTrace) ∨
      (∃ r s', sendSms d t f env s = (.ok s.sent.length, s') ∧ s'.smsTrace = .sent r :: s.smsTrace ∧ s'.sent.length = s.sent.length + 1) := by
    intro commands h
    obtain ⟨ok, h1, h2, h3⟩ := h
    have only : ∀ {e}, (sendSms d t f env s).1 = .error e → OnlyLog s (sendSms d t f env s).2 →
        ∃ e s', sendSms d t f env s = (.error e, s') ∧ s'.smsTrace = s.smsTrace := by
      rintro e h4 ⟨l, w, h5⟩
      exact ⟨e, (sendSms d t f env s).2, Prod.ext h4 rfl, (congrArg St.smsTrace h5).trans rfl⟩
    cases ok with
    | false =>
      obtain ⟨⟨e, h4⟩, h5⟩ := h2 rfl
      exact .inl (only h4 h5)
    | true =>
      obtain ⟨h4, h5⟩ := h3 rfl
      cases hc : cmgsLine (lastAnswer env (sendSms d t f env s).2.log) with
      | none => exact .inl (only (h4 hc).1 (h4 hc).2)
      | some l =>
        cases hp : pyInt (l.drop 7) with
        | error e => exact .inl (only ((h5 l hc).1 e hp).1 ((h5 l hc).1 e hp).2)
        | ok r => exact .inr ⟨r, _, Prod.ext ((h5 l hc).2 r hp).1 rfl, ((h5 l hc).2 r hp).2.2, by rw [((h5 l hc).2 r hp).2.1]; simp⟩
  cases hm : s.smsTextMode with
  | true => exact spec (C38_text_mode hm)
  | false =>
    cases he : encodeSmsSubmitPdu d t s.smsRef (sendFlash := f) with
    | error e => exact .inl ⟨e, s, C38_not_encodable hm he, rfl⟩
    | ok pdus => exact spec (C38_pdu_mode hm he)

theorem sf_coverage : ∀ (n : Nat) (b : Bool), Steps env SmsFrame (coverageLoop n b)
  | 0, _ => by unfold coverageLoop; sframe
  | n + 1, true => by
    have := fun b => sf_coverage n b
    unfold coverageLoop; sframe <;> exact this _
  | n + 1, false => by
    have := fun b => sf_coverage n b
    unfold coverageLoop signalStrength; sframe <;> exact this _

/-- What is done with the modem object up to the message. -/
def untilTyped (a : SendArgs) : List Op := .waitForNetworkCoverage a.rounds :: a.meanwhile.map .event

theorem run_untilTyped [PyUnicode] (a : SendArgs) (s : St) :
    runOps env (untilTyped a) s = happenAll env a.meanwhile (waitForNetworkCoverage a.rounds env s).2 := by
  have hd : (discard (waitForNetworkCoverage a.rounds) env s).2 = (waitForNetworkCoverage a.rounds env s).2 := by
    unfold discard
    rw [run_bind]
    rcases waitForNetworkCoverage a.rounds env s with ⟨_ | _, _⟩ <;> rfl
  show runOps env (a.meanwhile.map .event) (discard (waitForNetworkCoverage a.rounds) env s).2 = _
  rw [hd]
  generalize (waitForNetworkCoverage a.rounds env s).2 = s
  induction a.meanwhile generalizing s with
  | nil => rfl
  | cons e es ih => exact ih _

theorem runOps_append [PyUnicode] (a b : List Op) (s : St) : runOps env (a ++ b) s = runOps env b (runOps env a s) := by
  induction a generalizing s with
  | nil => rfl
  | cons o a ih => exact ih _

/-- The last operation. -/
def sendOp (a : SendArgs) (text : PyStr) : Op := if a.deliver then .sendWait a.destination text false a.early a.during else .send a.destination text false

theorem run_sendOp [PyUnicode] (a : SendArgs) (text : PyStr) (s : St) : runOps env [sendOp a text] s = (toolSend a text env s).2 := by
  have hd : ∀ (m : M Nat), (discard m env s).2 = (m env s).2 := by
    intro m
    unfold discard
    rw [run_bind]
    rcases m env s with ⟨_ | _, _⟩ <;> rfl
  show ((sendOp a text).run env s).2 = _
  unfold sendOp toolSend
  split <;> exact hd _

/-- Nothing has been sent before the message is typed. -/
theorem untilTyped_taken [PyUnicode] (a : SendArgs) {s : St} (h : Fresh s) : taken (runOps env (untilTyped a) s).smsTrace = 0 := by
  rw [run_untilTyped, happen_taken]
  have := ((sf_coverage (env := env) a.rounds true).run s).2
  simp only [smsPart, Prod.mk.injEq] at this
  rw [show (waitForNetworkCoverage a.rounds env s).2.smsTrace = s.smsTrace from this.2.2.2, h.2.2.2]
  rfl

theorem sentOk_history [PyUnicode] {s : St} (h : Fresh s) (ops : List Op) : SentOk (runOps env ops s) :=
  runOps_inv sentOk_atom ops ⟨by simp [h.2.1, h.2.2.1, dictGet, lastIdx], by simp [h.2.2.1, h.2.2.2, sentMessages]⟩

theorem sent_length [PyUnicode] {s : St} (h : Fresh s) (ops : List Op) : (runOps env ops s).sent.length = taken (runOps env ops s).smsTrace := by
  have h1 := congrArg List.length (sentOk_history (env := env) h ops).2
  rwa [List.length_map, taken_messages, taken_reverse] at h1

theorem sentNote_status (x : Sent) : sentNote x = outcomeNote x.status := by
  unfold sentNote Sent.status
  rcases x.report with _ | ⟨_ | ⟨_, _, _, _, _, d⟩⟩
  · rfl
  · rfl
  · by_cases hd : d = 0 <;> simp [hd, outcomeNote]

/-- When the program ends with status 0, then exactly one message was sent: all parts of the typed message
were transmitted to the destination and accepted. What the user is told is what the delivery reports say that
came with the reference of the message. The port is closed. -/
theorem C75_sent [PyUnicode] {a : SendArgs} {s : St} (hs : Fresh s) (hm : s.smsTextMode = false) (h : (sendsms env a s).exit = .status 0) :
    ∃ text pdus old new r status, a.typed = some text ∧ encodeSmsSubmitPdu a.destination text 0 = .ok pdus ∧
      Transmission env.reply (pdus.flatMap pduCommands) old new true ∧ new <:+ (sendsms env a s).st.log ∧
      sentMessages (sendsms env a s).st.smsTrace.reverse = [(r, status)] ∧
      (sendsms env a s).out.getLast? = some (outcomeNote status) ∧ (a.deliver = false → status = 0) ∧
      (sendsms env a s).err = [] ∧ (sendsms env a s).st.alive = false := by
  obtain ⟨text, s1, v, s2, i, s3, x, h0, h1, h2, h3, h4, h5, h6, h7, h8⟩ := sendsms_sent h
  have hf1 : Fresh s1 := by have := fresh_connect (env := env) a.pin hs; rwa [h2] at this
  have ho1 : openState s1 = (true, s.smsTextMode) := by have := connect_open (env := env) a.pin s; rwa [h2] at this
  have hr2 := run_untilTyped (env := env) a s1
  rw [h3] at hr2
  dsimp only at hr2
  generalize hq : happenAll env a.meanwhile s2 = s2' at hr2 h4
  have hm2 : s2'.smsTextMode = false := by
    have c1 := ((of_coverage (env := env) a.rounds true).run s1).2
    rw [show coverageLoop a.rounds true env s1 = _ from h3] at c1
    have c2 := ((of_await (env := env) (fun _ => false) a.meanwhile).run s2).2
    rw [await_all, hq] at c2
    have := congrArg Prod.snd (c2.trans (c1.trans ho1))
    exact this.trans hm
  have hk2 : taken s2'.smsTrace = 0 := by rw [← hr2]; exact untilTyped_taken a hf1
  have href : s2'.smsRef = 0 := by
    have := (C37_follows (env := env) hf1 (untilTyped a)).1
    rw [hr2] at this
    exact this (taken_none (by rw [taken_reverse]; exact hk2))
  have hl2 : s2'.sent.length = 0 := by
    have := sent_length (env := env) hf1 (untilTyped a)
    rw [hr2, hk2] at this
    exact this
  obtain ⟨s', k1, k2, k3⟩ := toolSend_ok h4
  have hi : i = 0 ∧ ∃ r, s'.smsTrace = .sent r :: s2'.smsTrace := by
    rcases send_trace (env := env) a.destination text false s2' with ⟨e, s'', j1, _⟩ | ⟨r, s'', j1, j2⟩
    · rw [k1] at j1; cases j1
    · rw [k1] at j1; cases j1; exact ⟨hl2, r, j2.1⟩
  obtain ⟨rfl, r, hr⟩ := hi
  have ht3 : taken s3.smsTrace = 1 := by rw [k2, hr]; simp [taken, hk2]
  have hr3 : runOps env (untilTyped a ++ [sendOp a text]) s1 = s3 := by
    rw [runOps_append, hr2, run_sendOp, h4]
  have hl3 : s3.sent.length = 1 := by
    have := sent_length (env := env) hf1 (untilTyped a ++ [sendOp a text])
    rw [hr3, ht3] at this
    exact this
  have hsent : s3.sent = [x] := by
    match hx : s3.sent, hl3, h5 with
    | [y], _, h => simp at h; rw [h]
  have hmsgs : sentMessages s3.smsTrace.reverse = [(x.reference, x.status)] := by
    have := (sentOk_history (env := env) hf1 (untilTyped a ++ [sendOp a text])).2
    rw [hr3, hsent] at this
    exact this.symm
  cases he : encodeSmsSubmitPdu a.destination text s2'.smsRef (sendFlash := false) with
  | error e => rw [C38_not_encodable hm2 he] at k1; cases k1
  | ok pdus =>
    obtain ⟨ok, q1, q2, q3⟩ := C38_pdu_mode (env := env) (destination := a.destination) (text := text) (flash := false) hm2 he
    rw [k1] at q1 q2 q3
    dsimp only at q1 q2 q3
    have hok : ok = true := by
      cases ok with
      | true => rfl
      | false => obtain ⟨⟨e, h⟩, _⟩ := q2 rfl; cases h
    subst hok
    refine ⟨text, pdus, s2'.log, s'.log, x.reference, x.status, h1, href ▸ he, q1, ?_, by rw [h6]; exact hmsgs, by rw [h7, sentNote_status], ?_, h8, by rw [h6]; rfl⟩
    · rw [h6]
      show s'.log <:+ s3.log
      cases hd : a.deliver with
      | false => rw [k3 hd]; exact List.suffix_rfl
      | true =>
        unfold toolSend at h4
        rw [hd, if_pos rfl] at h4
        obtain ⟨sa, told, w1, w2⟩ := (C71_wait (env := env) a.destination text false a.early a.during s2').2 0 s' k1
        have w3 := (of_await (env := env) (fun _ => false) a.early).run s'
        rw [await_all] at w3
        obtain ⟨sb, told', w4, w5⟩ := await_report (env := env) a.during (s := { happenAll env a.early s' with smsStatusReportEvent := some false }) rfl
        obtain ⟨rfl, rfl⟩ := C71_wait_unique w1 w4
        have w6 := (of_await (env := env) (fun s => s.smsStatusReportEvent = some true) a.during).run { happenAll env a.early s' with smsStatusReportEvent := some false }
        rw [w5] at w6
        rw [w2] at h4
        cases told with
        | false => cases h4
        | true =>
          cases h4
          obtain ⟨⟨n1, e1, _⟩, _⟩ := w3
          obtain ⟨⟨n2, e2, _⟩, _⟩ := w6
          dsimp only at e1 e2 ⊢
          exact ⟨n2 ++ n1, by rw [e2, e1, List.append_assoc]⟩
    · intro hd
      have := k3 hd
      subst this
      rw [hr] at hmsgs
      rw [List.reverse_cons, sentMessages_snoc_sent] at hmsgs
      have hnil : sentMessages s2'.smsTrace.reverse = [] := List.eq_nil_of_length_eq_zero (by rw [taken_messages, taken_reverse, hk2])
      rw [hnil] at hmsgs
      simp at hmsgs
      exact hmsgs.2.symm

/-! How a run ends. -/

/-- How far a run comes. -/
inductive SendRun [PyUnicode] (env : Env) (a : SendArgs) (s : St) : Prop
  | noPort : a.port = none → (sendsms env a s).st = s → (sendsms env a s).exit = .status 1 → (sendsms env a s).err ≠ [] → SendRun env a s
  | pin {e c s1} : a.port ≠ none → connect a.pin env s = (.error e, s1) → pinComplaint e = some c → (sendsms env a s).st = s1 →
      (sendsms env a s).exit = .status 1 → (sendsms env a s).err = [c] → SendRun env a s
  | failed {e s1} : a.port ≠ none → connect a.pin env s = (.error e, s1) → pinComplaint e = none → (sendsms env a s).st = s1 →
      (sendsms env a s).exit = .raised e → (sendsms env a s).err = [] → SendRun env a s
  | noCoverage {s1 s2 d} : a.port ≠ none → connect a.pin env s = (.ok (), s1) → waitForNetworkCoverage a.rounds env s1 = (.error (.timeout d), s2) →
      (sendsms env a s).st = closed s2 → (sendsms env a s).exit = .status 1 → (sendsms env a s).err = [] → SendRun env a s
  | coverage {s1 s2 e} : a.port ≠ none → connect a.pin env s = (.ok (), s1) → waitForNetworkCoverage a.rounds env s1 = (.error e, s2) →
      (sendsms env a s).st = s2 → (sendsms env a s).exit = .raised e → (sendsms env a s).err = [] → SendRun env a s
  | noInput {s1 v s2} : a.port ≠ none → connect a.pin env s = (.ok (), s1) → waitForNetworkCoverage a.rounds env s1 = (.ok v, s2) → a.typed = none →
      (sendsms env a s).st = happenAll env a.meanwhile s2 → (sendsms env a s).exit = .noInput → (sendsms env a s).err = [] → SendRun env a s
  | sent {s1 v s2 text i s3} : a.port ≠ none → connect a.pin env s = (.ok (), s1) → waitForNetworkCoverage a.rounds env s1 = (.ok v, s2) → a.typed = some text →
      toolSend a text env (happenAll env a.meanwhile s2) = (.ok i, s3) → i < s3.sent.length →
      (sendsms env a s).st = closed s3 → (sendsms env a s).exit = .status 0 → (sendsms env a s).err = [] → SendRun env a s
  | timeout {s1 v s2 text d s3} : a.port ≠ none → connect a.pin env s = (.ok (), s1) → waitForNetworkCoverage a.rounds env s1 = (.ok v, s2) → a.typed = some text →
      toolSend a text env (happenAll env a.meanwhile s2) = (.error (.timeout d), s3) →
      (sendsms env a s).out.getLast? = some py!"Failed to send message: the send operation timed out" →
      (sendsms env a s).st = closed s3 → (sendsms env a s).exit = .status 1 → (sendsms env a s).err = [] → SendRun env a s
  | error {s1 v s2 text e s3} : a.port ≠ none → connect a.pin env s = (.ok (), s1) → waitForNetworkCoverage a.rounds env s1 = (.ok v, s2) → a.typed = some text →
      toolSend a text env (happenAll env a.meanwhile s2) = (.error e, s3) → (∀ d, e ≠ .timeout d) →
      (sendsms env a s).st = s3 → (sendsms env a s).exit = .raised e → (sendsms env a s).err = [] → SendRun env a s

/-- Message objects stay. -/
theorem sent_kept (n : Nat) (a b : St) (h : Atom env a b) (ha : n ≤ a.sent.length) : n ≤ b.sent.length := by
  rcases atom_sms h with h | ⟨d, t, r, rfl⟩ | ⟨st, r, ds, x, t1, t2, rfl⟩
  · simp only [smsPart, Prod.mk.injEq] at h
    rw [h.2.2.1]; exact ha
  · simp only [recordSent, run_modify, List.length_append]; omega
  · simp only [updateSent, run_modify]
    split
    · rw [List.length_modify]; exact ha
    · exact ha

theorem event_kept [PyUnicode] {n : Nat} (e : Event) {s : St} (h : n ≤ s.sent.length) : n ≤ (e.run env s).2.sent.length :=
  runOps_inv (J := fun s => n ≤ s.sent.length) (sent_kept n) [.event e] h

theorem happen_kept [PyUnicode] {n : Nat} : ∀ (es : List Event) {s : St}, n ≤ s.sent.length → n ≤ (happenAll env es s).sent.length
  | [], _, h => h
  | e :: es, _, h => happen_kept es (event_kept e h)

theorem await_kept [PyUnicode] {n : Nat} {s s' : St} {es : List Event} {told : Bool} (h : AwaitsReport env s es s' told) (hn : n ≤ s.sent.length) : n ≤ s'.sent.length := by
  induction h with
  | over => exact hn
  | told => exact event_kept _ hn
  | other _ _ ih => exact ih (event_kept _ hn)

/-- The message object is there. -/
theorem toolSend_object [PyUnicode] {a : SendArgs} {text : PyStr} {s s3 : St} {i : Nat} (h : toolSend a text env s = (.ok i, s3)) : i < s3.sent.length := by
  have key : ∀ {s'}, sendSms a.destination text false env s = (.ok i, s') → i < s'.sent.length := by
    intro s' h1
    rcases send_trace (env := env) a.destination text false s with ⟨e, s'', j1, _⟩ | ⟨r, s'', j1, _, j3⟩
    · rw [h1] at j1; cases j1
    · rw [h1] at j1; cases j1; omega
  unfold toolSend at h
  cases hd : a.deliver with
  | false => rw [hd] at h; exact key h
  | true =>
    rw [hd, if_pos rfl] at h
    have hw := C71_wait (env := env) a.destination text false a.early a.during s
    cases hs : sendSms a.destination text false env s with
    | mk r s' =>
      cases r with
      | error e => rw [hw.1 e s' hs] at h; cases h
      | ok j =>
        obtain ⟨s2, told, h1, h2⟩ := hw.2 j s' hs
        rw [h2] at h
        cases told with
        | false => cases h
        | true =>
          cases h
          have h5 : i + 1 ≤ s2.sent.length := await_kept h1 (show i + 1 ≤ (happenAll env a.early s').sent.length from happen_kept _ (key hs))
          exact h5

/-- At most one message is sent; when `toolSend` fails after it was sent, then the report did not come in time. -/
theorem toolSend_taken [PyUnicode] (a : SendArgs) (text : PyStr) (s : St) :
    (taken (toolSend a text env s).2.smsTrace = taken s.smsTrace ∧ ∃ e, (toolSend a text env s).1 = .error e) ∨
    (taken (toolSend a text env s).2.smsTrace = taken s.smsTrace + 1 ∧
      ((∃ i, (toolSend a text env s).1 = .ok i) ∨ a.deliver = true ∧ (toolSend a text env s).1 = .error (.timeout none))) := by
  unfold toolSend
  have hs := send_trace (env := env) a.destination text false s
  cases hd : a.deliver with
  | false =>
    rcases hs with ⟨e, s', h1, h2⟩ | ⟨r, s', h1, h2, _⟩
    · exact .inl ⟨by simp [h1, h2], e, by simp [h1]⟩
    · exact .inr ⟨by simp [h1, h2, taken], .inl ⟨_, by simp [h1]; rfl⟩⟩
  | true =>
    have hw := C71_wait (env := env) a.destination text false a.early a.during s
    rw [if_pos rfl]
    rcases hs with ⟨e, s', h1, h2⟩ | ⟨r, s', h1, h2, _⟩
    · rw [hw.1 e s' h1]
      exact .inl ⟨congrArg taken h2, e, rfl⟩
    · obtain ⟨s2, told, h3, h4⟩ := hw.2 _ s' h1
      rw [h4]
      refine .inr ⟨?_, ?_⟩
      · show taken s2.smsTrace = _
        rw [await_taken h3]
        show taken (happenAll env a.early s').smsTrace = _
        rw [happen_taken, h2]; rfl
      · cases told with
        | true => exact .inl ⟨_, rfl⟩
        | false => exact .inr ⟨rfl, rfl⟩

theorem sendsms_run [PyUnicode] (a : SendArgs) (s : St) : SendRun env a s := by
  cases hp : a.port with
  | none => exact .noPort hp (by simp [sendsms, hp]) (by simp [sendsms, hp]) (by simp [sendsms, hp])
  | some port =>
    have hp' : a.port ≠ none := by simp [hp]
    cases hc : connect a.pin env s with
    | mk r s1 =>
      cases r with
      | error e =>
        cases hq : pinComplaint e with
        | some c =>
          have : sendsms env a s = ⟨.status 1, s1, [], [c]⟩ := by simp only [sendsms, hp, hc, hq]
          exact .pin hp' hc hq (by rw [this]) (by rw [this]) (by rw [this])
        | none =>
          have : sendsms env a s = ⟨.raised e, s1, [], []⟩ := by simp only [sendsms, hp, hc, hq]
          exact .failed hp' hc hq (by rw [this]) (by rw [this]) (by rw [this])
      | ok u =>
        have h1 : sendsms env a s = sendsmsCoverage env a s1 := by simp only [sendsms, hp, hc]
        cases hn : waitForNetworkCoverage a.rounds env s1 with
        | mk r s2 =>
          cases r with
          | error e =>
            by_cases he : ∃ d, e = .timeout d
            · obtain ⟨d, rfl⟩ := he
              simp only [sendsmsCoverage, hn] at h1
              exact .noCoverage hp' hc hn (by rw [h1]) (by rw [h1]) (by rw [h1])
            · have h2 : sendsmsCoverage env a s1 = ⟨.raised e, s2, [py!"Checking for network coverage..."], []⟩ := by
                simp only [sendsmsCoverage, hn]
                split <;> rename_i h3 <;> cases h3
                · exact absurd ⟨_, rfl⟩ he
                · rfl
              rw [h2] at h1
              exact .coverage hp' hc hn (by rw [h1]) (by rw [h1]) (by rw [h1])
          | ok v =>
            have h2 : sendsmsCoverage env a s1 = sendsmsType env a s2 [py!"Checking for network coverage..."] := by simp only [sendsmsCoverage, hn]
            rw [h2] at h1
            cases ht : a.typed with
            | none =>
              simp only [sendsmsType, await_all, ht] at h1
              exact .noInput hp' hc hn ht (by rw [h1]) (by rw [h1]) (by rw [h1])
            | some text =>
              simp only [sendsmsType, await_all, ht] at h1
              cases hs : toolSend a text env (happenAll env a.meanwhile s2) with
              | mk r s3 =>
                cases r with
                | ok i =>
                  have hi := toolSend_object hs
                  simp only [sendsmsSend, hs, List.getElem?_eq_getElem hi] at h1
                  exact .sent hp' hc hn ht hs hi (by rw [h1]) (by rw [h1]) (by rw [h1])
                | error e =>
                  by_cases he : ∃ d, e = .timeout d
                  · obtain ⟨d, rfl⟩ := he
                    simp only [sendsmsSend, hs] at h1
                    exact .timeout hp' hc hn ht hs (by rw [h1]; simp) (by rw [h1]) (by rw [h1]) (by rw [h1])
                  · simp only [sendsmsSend, hs] at h1
                    split at h1 <;> rename_i h5 <;> cases h5
                    · exact absurd ⟨_, rfl⟩ he
                    · exact .error hp' hc hn ht hs (fun d hd => he ⟨d, hd⟩) (by rw [h1]) (by rw [h1]) (by rw [h1])

/-- Without a port nothing is done. -/
theorem C75_no_port [PyUnicode] {a : SendArgs} (h : a.port = none) (s : St) :
    (sendsms env a s).st = s ∧ (sendsms env a s).exit = .status 1 ∧ (sendsms env a s).out = [] := by simp [sendsms, h]

theorem open_run {a : SendArgs} {s s1 : St} {x : Except PyErr Unit} (h : connect a.pin env s = (x, s1)) : s1.alive = true := by
  have := connect_open (env := env) a.pin s
  rw [h] at this
  exact congrArg Prod.fst this

theorem open_coverage {n : Nat} {s s1 : St} {x : Except PyErr Int} (h : waitForNetworkCoverage n env s = (x, s1)) (hs : s.alive = true) : s1.alive = true := by
  have := ((of_coverage (env := env) n true).run s).2
  rw [show coverageLoop n true env s = _ from h] at this
  exact (congrArg Prod.fst this).trans hs

theorem open_happen (es : List Event) (s : St) : (happenAll env es s).alive = s.alive := by
  have := ((of_await (env := env) (fun _ => false) es).run s).2
  rw [await_all] at this
  exact congrArg Prod.fst this

theorem open_toolSend [PyUnicode] (a : SendArgs) (text : PyStr) (s : St) : (toolSend a text env s).2.alive = s.alive := by
  unfold toolSend
  split
  · exact congrArg Prod.fst ((of_sendWait (env := env) a.destination text false a.early a.during).run s).2
  · exact congrArg Prod.fst ((of_send (env := env) a.destination text false).run s).2

/-- The port is left open exactly when the program ends with an exception or complains about the PIN. -/
theorem C75_left_open [PyUnicode] {a : SendArgs} (h : a.port ≠ none) (s : St) :
    (sendsms env a s).st.alive = true ↔ (∀ n, (sendsms env a s).exit ≠ .status n) ∨ (sendsms env a s).err ≠ [] := by
  cases sendsms_run (env := env) a s with
  | noPort h0 => exact absurd h0 h
  | pin _ h1 _ h2 h3 h4 => rw [h2, h3, h4]; simp [open_run h1]
  | failed _ h1 _ h2 h3 h4 => rw [h2, h3, h4]; simp [open_run h1]
  | noCoverage _ _ _ h2 h3 h4 => rw [h2, h3, h4]; simp [closed]
  | coverage _ h1 h1' h2 h3 h4 => rw [h2, h3, h4]; simp [open_coverage h1' (open_run h1)]
  | noInput _ h1 h1' _ h2 h3 h4 => rw [h2, h3, h4]; simp [open_happen, open_coverage h1' (open_run h1)]
  | sent _ _ _ _ _ _ h2 h3 h4 => rw [h2, h3, h4]; simp [closed]
  | timeout _ _ _ _ _ _ h2 h3 h4 => rw [h2, h3, h4]; simp [closed]
  | @error s1 v s2 text _ _ _ h1 h1' _ hs _ h2 h3 h4 =>
    have := open_toolSend (env := env) a text (happenAll env a.meanwhile s2)
    rw [hs, open_happen, open_coverage h1' (open_run h1)] at this
    rw [h2, h3, h4]; simpa using this

/-- The modem takes at most one message. It took one exactly when the program says so with status 0, or, with
`-d`, when the program says that the message could not be sent because the report did not come. -/
theorem C75_at_most_one [PyUnicode] {s : St} (hs : Fresh s) (a : SendArgs) :
    taken (sendsms env a s).st.smsTrace ≤ 1 ∧ ((sendsms env a s).exit = .status 0 → taken (sendsms env a s).st.smsTrace = 1) ∧
    (taken (sendsms env a s).st.smsTrace = 1 → (sendsms env a s).exit ≠ .status 0 →
      a.deliver = true ∧ (sendsms env a s).exit = .status 1 ∧ (sendsms env a s).err = [] ∧
      (sendsms env a s).out.getLast? = some py!"Failed to send message: the send operation timed out") := by
  have h0 : ∀ {x s1}, connect a.pin env s = (x, s1) → Fresh s1 := by
    intro x s1 h
    have := fresh_connect (env := env) a.pin hs
    rwa [h] at this
  have hz : ∀ {s : St}, Fresh s → taken s.smsTrace = 0 := fun h => by rw [h.2.2.2]; rfl
  have hc : ∀ {s1 x s2}, Fresh s1 → waitForNetworkCoverage a.rounds env s1 = (x, s2) → taken s2.smsTrace = 0 := by
    intro s1 x s2 h1 h2
    have := ((sf_coverage (env := env) a.rounds true).run s1).2
    rw [show coverageLoop a.rounds true env s1 = _ from h2] at this
    simp only [smsPart, Prod.mk.injEq] at this
    rw [this.2.2.2]
    exact hz h1
  cases sendsms_run (env := env) a s with
  | noPort _ h2 h3 => rw [h2, h3, hz hs]; simp
  | pin _ h1 _ h2 h3 => rw [h2, h3, hz (h0 h1)]; simp
  | failed _ h1 _ h2 h3 => rw [h2, h3, hz (h0 h1)]; simp
  | noCoverage _ h1 h1' h2 h3 => rw [h2, h3]; simp [closed, hc (h0 h1) h1']
  | coverage _ h1 h1' h2 h3 => rw [h2, h3, hc (h0 h1) h1']; simp
  | noInput _ h1 h1' _ h2 h3 => rw [h2, h3, happen_taken, hc (h0 h1) h1']; simp
  | @sent s1 v s2 text _ _ _ h1 h1' _ ht _ h2 h3 =>
    have := toolSend_taken (env := env) a text (happenAll env a.meanwhile s2)
    rw [ht, happen_taken, hc (h0 h1) h1'] at this
    rw [h2, h3]
    simp only [closed]
    rcases this with ⟨_, e, h⟩ | ⟨h, _⟩
    · cases h
    · simp [h]
  | @timeout s1 v s2 text _ _ _ h1 h1' _ ht ho h2 h3 h4 =>
    have := toolSend_taken (env := env) a text (happenAll env a.meanwhile s2)
    rw [ht, happen_taken, hc (h0 h1) h1'] at this
    rw [h2, h3, h4, ho]
    simp only [closed]
    rcases this with ⟨h, _⟩ | ⟨h, ⟨_, h'⟩ | ⟨h', _⟩⟩
    · simp at h; simp [h]
    · cases h'
    · simp at h; simp [h, h']
  | @error s1 v s2 text _ _ _ h1 h1' _ ht he h2 h3 =>
    have := toolSend_taken (env := env) a text (happenAll env a.meanwhile s2)
    rw [ht, happen_taken, hc (h0 h1) h1'] at this
    rw [h2, h3]
    rcases this with ⟨h, _⟩ | ⟨h, ⟨_, h'⟩ | ⟨_, h'⟩⟩
    · simp at h; simp [h]
    · cases h'
    · simp only [Except.error.injEq] at h'; exact absurd h' (he _)

/-- Without `-d` the user is told nothing about the delivery. -/
theorem C75_without_report [PyUnicode] {a : SendArgs} {s : St} (hs : Fresh s) (hm : s.smsTextMode = false) (hd : a.deliver = false)
    (h : (sendsms env a s).exit = .status 0) : (sendsms env a s).out.getLast? = some py!"Message sent." := by
  obtain ⟨_, _, _, _, _, st, _, _, _, _, _, h1, h2, _⟩ := C75_sent hs hm h
  rw [h1, h2 hd]; rfl

/-! ### identify-modem.py -/

/-- A question whose answer is printed as it is. -/
theorem plain_answer (hd : 0 < env.depth) (c : PyStr) (s : St) :
    (∃ ls, PlainAnswer env.reply s.log c ls ∧ rawAnswer c env s = (.ok (.lines ls), sent [c] s)) ∨
    ((∀ ls, ¬ PlainAnswer env.reply s.log c ls) ∧ ∃ e, rawAnswer c env s = (.error e, sent [c] s)) := by
  have hsent : sent [c] s = { s with log := (c ++ [13]) :: s.log } := rfl
  obtain ⟨d, hdd⟩ : ∃ d, env.depth = d + 1 := ⟨env.depth - 1, by omega⟩
  cases hr : env.reply ((c ++ [13]) :: s.log) with
  | timeout x =>
    refine .inr ⟨fun ls h => ?_, .timeout x, ?_⟩
    · rw [PlainAnswer, hr] at h; cases h.1
    · unfold rawAnswer
      rw [run_bind, C32_timeout hd hr, hsent]
  | lines ls =>
    by_cases hne : ls = []
    · subst hne
      refine .inr ⟨fun ls h => ?_, .indexError, ?_⟩
      · rw [PlainAnswer, hr] at h; cases h.1; exact h.2 rfl
      · unfold rawAnswer
        simp [run_bind, write, hdd, writeN, hr, hsent]
    · refine .inl ⟨ls, ⟨hr, hne⟩, ?_⟩
      unfold rawAnswer
      rw [run_bind, C32_unparsed hd hr hne, hsent]
      rfl

theorem interview (hd : 0 < env.depth) : ∀ (items : List (PyStr × PyStr)) (s : St),
    ∃ log' answers ok, Interview env.reply (items.map (·.2)) s.log log' answers ok ∧
      (showAll (items.map fun x => (x.1, rawAnswer x.2)) env s).2.2 = { s with log := log' } ∧
      (showAll (items.map fun x => (x.1, rawAnswer x.2)) env s).2.1 = (items.map (·.1)).zip (answers.map .lines) ∧
      ((showAll (items.map fun x => (x.1, rawAnswer x.2)) env s).1 = none ↔ ok = true)
  | [], s => ⟨s.log, [], true, .done, rfl, rfl, by simp [showAll]⟩
  | (l, c) :: items, s => by
    rcases plain_answer hd c s with ⟨ls, h1, h2⟩ | ⟨h1, e, h2⟩
    · obtain ⟨log', answers, ok, i1, i2, i3, i4⟩ := interview hd items (sent [c] s)
      refine ⟨log', ls :: answers, ok, .next h1 i1, ?_, ?_, ?_⟩
      · simp only [List.map_cons, showAll, h2, i2]; rfl
      · simp only [List.map_cons, showAll, h2, i3]; rfl
      · simp only [List.map_cons, showAll, h2, i4]
    · refine ⟨_, [], false, .stop h1, ?_, ?_, ?_⟩
      · simp only [List.map_cons, showAll, h2]; rfl
      · simp only [List.map_cons, showAll, h2]; simp
      · simp only [List.map_cons, showAll, h2]; simp

/-- What stands before each answer. -/
def debugLabels : List PyStr :=
  [py!"ATI", py!"AT+CGMI:", py!"AT+CGMM:", py!"AT+CGMR:", py!"AT+CFUN=?:", py!"AT+WIND=?:", py!"AT+WIND?:", py!"AT+CPMS=?:", py!"AT+CNMI=?:",
   py!"AT+CVHU=?:", py!"AT+CSMP?:", py!"AT+GCAP:", py!"AT+CPIN?", py!"AT+CLAC:"]

/-- `-d` asks these questions in this order, each once, and shows each answer as it is, whether it is an error or
not, up to the first question that is not answered; nothing else is done, and the port is left open. -/
theorem C75_debug (hd : 0 < env.depth) {pin : Option PyStr} {s s1 : St} (hc : connect pin env s = (.ok (), s1)) :
    ∃ log' answers ok, Interview env.reply debugCommands s1.log log' answers ok ∧ (identify env pin true s).st = { s1 with log := log' } ∧
      (identify env pin true s).shown = debugLabels.zip (answers.map .lines) ∧ ((identify env pin true s).exit = .status 0 ↔ ok = true) ∧
      (identify env pin true s).st.alive = true := by
  obtain ⟨log', answers, ok, h1, h2, h3, h4⟩ := interview hd (debugLabels.zip debugCommands) s1
  have hi : (debugLabels.zip debugCommands).map (fun x => (x.1, rawAnswer x.2)) = debugItems := rfl
  have hl : (debugLabels.zip debugCommands).map (·.1) = debugLabels := rfl
  have hq : (debugLabels.zip debugCommands).map (·.2) = debugCommands := rfl
  rw [hi] at h2 h3 h4
  rw [hl] at h3
  rw [hq] at h1
  have ho : s1.alive = true := by
    have := connect_open (env := env) pin s
    rw [hc] at this
    exact congrArg Prod.fst this
  refine ⟨log', answers, ok, h1, ?_⟩
  rcases hx : showAll debugItems env s1 with ⟨_ | e, shown, s2⟩
  · rw [hx] at h2 h3 h4
    simp only [identify, hc, if_true, hx]
    exact ⟨h2, h3, by simpa using h4, (congrArg St.alive h2).trans ho⟩
  · rw [hx] at h2 h3 h4
    simp only [identify, hc, if_true, hx]
    exact ⟨h2, h3, by simpa using h4, (congrArg St.alive h2).trans ho⟩

theorem of_showAll : ∀ (items : List (PyStr × M Printed)), (∀ x ∈ items, Steps env OpenFrame x.2) → ∀ s, (showAll items env s).2.2.alive = s.alive
  | [], _, _ => rfl
  | (l, m) :: items, h, s => by
    have h1 : (m env s).2.alive = s.alive := congrArg Prod.fst ((h (l, m) (by simp)).run s).2
    have ih := of_showAll items (fun x hx => h x (by simp [hx]))
    rcases hm : m env s with ⟨_ | v, s'⟩
    · simp only [showAll, hm]; rw [hm] at h1; exact h1
    · simp only [showAll, hm]; rw [hm] at h1; exact (ih s').trans h1

/-- The program never closes the port. -/
theorem C75_identify_open (env : Env) (pin : Option PyStr) (debug : Bool) (s : St) : (identify env pin debug s).st.alive = true := by
  have hc := congrArg Prod.fst (connect_open (env := env) pin s)
  have hitems : ∀ x ∈ (if debug then debugItems else infoItems), Steps env OpenFrame x.2 := by
    have h1 : ∀ c, Steps env OpenFrame (rawAnswer c) := fun c => by unfold rawAnswer; oframe
    have h2 : Steps env OpenFrame manufacturer := by unfold manufacturer; oframe
    have h3 : Steps env OpenFrame model := by unfold model; oframe
    have h4 : Steps env OpenFrame revision := by unfold revision; oframe
    have h5 : Steps env OpenFrame imei := by unfold imei; oframe
    have h6 : Steps env OpenFrame imsi := by unfold imsi; oframe
    have h7 : Steps env OpenFrame networkName := by unfold networkName; oframe
    have h8 : ∀ {m}, Steps env OpenFrame m → Steps env OpenFrame (always m) := fun h => by unfold always; oframe
    have h9 : ∀ {m}, Steps env OpenFrame m → Steps env OpenFrame (orNone m) := fun h => by unfold orNone; oframe
    have h10 : ∀ {m}, Steps env OpenFrame m → Steps env OpenFrame (orNA m) := fun h => by unfold orNA; oframe
    have h11 := of_signal (env := env)
    cases debug with
    | true =>
      intro x hx
      simp only [if_true, debugItems, List.mem_cons, List.not_mem_nil, or_false] at hx
      rcases hx with rfl | rfl | rfl | rfl | rfl | rfl | rfl | rfl | rfl | rfl | rfl | rfl | rfl | rfl <;> exact h1 _
    | false =>
      intro x hx
      simp only [Bool.false_eq_true, if_false, infoItems, List.mem_cons, List.not_mem_nil, or_false] at hx
      rcases hx with rfl | rfl | rfl | rfl | rfl | rfl | rfl
      · exact h9 (h8 h2)
      · exact h9 (h8 h3)
      · exact h10 h4
      · exact h10 (h8 h5)
      · exact h10 (h8 h6)
      · exact h9 h7
      · dsimp only; oframe
  rcases hx : connect pin env s with ⟨e | u, s1⟩
  · rw [hx] at hc
    simp only [identify, hx]
    split <;> exact hc
  · rw [hx] at hc
    have := (of_showAll _ hitems s1).trans hc
    simp only [identify, hx]
    split <;> rename_i h <;> rw [h] at this <;> exact this

variable {b : Behaviour}

/-- The first line of an answer. -/
def firstOf (b : Behaviour) (c : PyStr) : PyStr := (b.answer c).headD []

theorem first_run (hf : Follows env b) {c : PyStr} (h : b.accepts c = true) (s : St) :
    (do firstLine (← write c) : M PyStr) env s = (.ok (firstOf b c), sent [c] s) := by
  rw [run_bind, write_yes hf h s]
  have hm := hf.yes c h
  cases ha : b.answer c with
  | nil => rw [ha] at hm; cases hm with | fine h _ _ => cases h
  | cons l rest => simp [firstLine, run_ofExcept, firstOf, ha]

theorem showAll_cons {items : List (PyStr × M Printed)} {m : M Printed} {s s1 s2 : St} {v : Printed} {shown : List (PyStr × Printed)} {x : Option PyErr} (l : PyStr)
    (h : m env s = (.ok v, s1)) (hr : showAll items env s1 = (x, shown, s2)) : showAll ((l, m) :: items) env s = (x, (l, v) :: shown, s2) := by
  simp only [showAll, h, hr]

/-- A name, or `None`. -/
def shownName : Option PyStr → Printed
  | some v => .text v
  | none => .none

theorem always_ok {m : M PyStr} {s s1 : St} {v : PyStr} (h : m env s = (.ok v, s1)) : always m env s = (.ok (some v), s1) := by
  unfold always; rw [run_bind, h]; rfl
theorem orNone_ok {m : M (Option PyStr)} {s s1 : St} {v : Option PyStr} (h : m env s = (.ok v, s1)) : orNone m env s = (.ok (shownName v), s1) := by
  unfold orNone; rw [run_bind, h]; cases v <;> rfl
theorem orNA_some {m : M (Option PyStr)} {s s1 s2 : St} {v w : PyStr} (h : m env s = (.ok (some v), s1)) (h' : m env s1 = (.ok (some w), s2)) :
    orNA m env s = (.ok (.text w), s2) := by
  unfold orNA; rw [run_bind, h]; dsimp only; rw [if_pos (by simp), run_bind, h']; rfl
theorem orNA_none {m : M (Option PyStr)} {s s1 : St} (h : m env s = (.ok none, s1)) : orNA m env s = (.ok (.text py!"N/A"), s1) := by
  unfold orNA; rw [run_bind, h]; rfl

/-- What is shown of a modem. -/
def infoShown (b : Behaviour) (name : Option PyStr) (n : Nat) : List (PyStr × Printed) :=
  [(py!"Manufacturer:", .text (firstOf b py!"AT+CGMI")), (py!"Model:", .text (firstOf b py!"AT+CGMM")),
   (py!"Revision:", .text (if b.accepts py!"AT+CGMR" then firstOf b py!"AT+CGMR" else py!"N/A")),
   (py!"\nIMEI:", .text (firstOf b py!"AT+CGSN")), (py!"IMSI:", .text (firstOf b py!"AT+CIMI")),
   (py!"\nNetwork:", shownName name), (py!"Signal strength:", .number (strength n))]

/-- For a modem that always gives the same answers: exactly these questions, some of them twice, and what is shown. -/
theorem C75_info (hf : Follows env b) {pin : Option PyStr} {s s1 : St} (hc : connect pin env s = (.ok (), s1))
    (ha : ∀ c ∈ [py!"AT+CGMI", py!"AT+CGMM", py!"AT+CGSN", py!"AT+CIMI", py!"AT+COPS?", py!"AT+CSQ"], b.accepts c = true)
    {name : Option PyStr} (hn : FirstOperator (b.answer py!"AT+COPS?") name) {l : PyStr} {rest : List PyStr} {n : Nat}
    (hs : b.answer py!"AT+CSQ" = l :: rest) (hl : SignalLine l n) :
    identify env pin false s = ⟨.status 0, sent (infoCommands (b.accepts py!"AT+CGMR")) s1, infoShown b name n, []⟩ := by
  have two : ∀ (c : PyStr) (s : St), b.accepts c = true → orNA (always (do firstLine (← write c))) env s = (.ok (.text (firstOf b c)), sent [c, c] s) :=
    fun c s h => orNA_some (always_ok (first_run hf h s)) (always_ok (first_run hf h (sent [c] s)))
  have one : ∀ (c : PyStr) (s : St), b.accepts c = true → orNone (always (do firstLine (← write c))) env s = (.ok (.text (firstOf b c)), sent [c] s) :=
    fun c s h => orNone_ok (always_ok (first_run hf h s))
  have rev : ∀ s, orNA revision env s = (.ok (.text (if b.accepts py!"AT+CGMR" then firstOf b py!"AT+CGMR" else py!"N/A")),
      sent (if b.accepts py!"AT+CGMR" then [py!"AT+CGMR", py!"AT+CGMR"] else [py!"AT+CGMR"]) s) := by
    intro s
    cases h : b.accepts py!"AT+CGMR" with
    | true => exact orNA_some (try_yes (first_run hf h s)) (try_yes (first_run hf h (sent [py!"AT+CGMR"] s)))
    | false =>
      obtain ⟨cls, code, hw⟩ := write_no hf h s
      have hq : (do firstLine (← write py!"AT+CGMR") : M PyStr) env s = (.error (.command cls code), sent [py!"AT+CGMR"] s) := by rw [run_bind, hw]
      exact orNA_none (try_no hq)
  have net : ∀ s, orNone networkName env s = (.ok (shownName name), sent [py!"AT+COPS?"] s) := by
    intro s
    have h1 : networkName env s = (.ok (operatorOf (b.answer py!"AT+COPS?")), sent [py!"AT+COPS?"] s) := by
      simp only [networkName, run_bind, write_yes hf (ha py!"AT+COPS?" (by simp)) s]
      unfold operatorOf
      cases hg : lineMatching (rxGroups copsRegex) (b.answer py!"AT+COPS?") with
      | none => rfl
      | some g => rcases g with _ | ⟨a, _ | ⟨b, _ | ⟨c, _ | ⟨d, g⟩⟩⟩⟩ <;> rfl
    rw [firstOperator_unique hn] at h1
    exact orNone_ok h1
  have sig : ∀ s, (do return .number (← signalStrength) : M Printed) env s = (.ok (.number (strength n)), sent [py!"AT+CSQ"] s) := by
    intro s
    obtain ⟨bb, ds, r, rfl, hb, hd, rfl⟩ := hl
    have hg := csq_iff.2 ⟨ds, rfl, hd, bb, r, rfl, hb⟩
    simp only [signalStrength, run_bind, write_yes hf (ha py!"AT+CSQ" (by simp)) s, hs, firstLine, run_ofExcept, hg, pyInt_of_digits hd, run_pure]
    simp only [strength]
    by_cases h99 : decVal ds = 99
    · simp [h99]
    · rw [if_pos (by omega), if_neg h99]
  have hall : showAll infoItems env s1 = (none, infoShown b name n, sent (infoCommands (b.accepts py!"AT+CGMR")) s1) := by
    unfold infoItems infoShown
    refine showAll_cons _ (one py!"AT+CGMI" _ (ha _ (by simp))) ?_
    refine showAll_cons _ (one py!"AT+CGMM" _ (ha _ (by simp))) ?_
    refine showAll_cons _ (rev _) ?_
    refine showAll_cons _ (two py!"AT+CGSN" _ (ha _ (by simp))) ?_
    refine showAll_cons _ (two py!"AT+CIMI" _ (ha _ (by simp))) ?_
    refine showAll_cons _ (net _) ?_
    refine showAll_cons _ (sig _) ?_
    simp only [showAll, sent_sent, infoCommands]
    cases b.accepts py!"AT+CGMR" <;> rfl
  simp only [identify, hc, Bool.false_eq_true, if_false, hall]

/-! ### Examples -/

/-- A modem that sends messages and has a delivery report for message 183, with status `status`. -/
def toolModem (number status : PyStr) : Env := modemWith fun log =>
  let c := log.head?.getD []
  if c = py!"AT+CSQ\r" then some (.lines [py!"+CSQ: 20,99", py!"OK"])
  else if c = py!"AT+CREG?\r" then some (.lines [py!"+CREG: 0,1", py!"OK"])
  else if c = py!"AT+CMGR=3\r" then some (.lines [py!"+CMGR: 0,,24", py!"07917248014000F506B70AA180920200003170715185908031707151854180" ++ status, py!"OK"])
  else if py!"AT+CMGS=" <+: c then some (.lines [py!"> "])
  else if c.getLast? = some 26 then some (.lines [py!"+CMGS: " ++ number, py!"OK"])
  else none

def toolArgs : SendArgs := ⟨some py!"/dev/ttyUSB0", none, false, py!"0829200000", some py!"Hi", 5, [], [], []⟩

attribute [local instance] asciiUnicode in
example : (sendsms (toolModem py!"183" py!"00") toolArgs {}).exit = .status 0 ∧
    (sendsms (toolModem py!"183" py!"00") toolArgs {}).out.getLast? = some py!"Message sent." := by decide +kernel
attribute [local instance] asciiUnicode in
example : (sendsms (toolModem py!"183" py!"00") { toolArgs with deliver := true, during := [reportEvent] } {}).exit = .status 0 ∧
    (sendsms (toolModem py!"183" py!"00") { toolArgs with deliver := true, during := [reportEvent] } {}).out.getLast? = some py!"Message sent and delivered OK." := by decide +kernel

attribute [local instance] asciiUnicode in
/-- A delivery that failed is a success for the caller of the program. -/
theorem C75_failed_status : (sendsms (toolModem py!"183" py!"40") { toolArgs with deliver := true, during := [reportEvent] } {}).exit = .status 0 ∧
    (sendsms (toolModem py!"183" py!"40") { toolArgs with deliver := true, during := [reportEvent] } {}).out.getLast? =
      some py!"Message sent, but delivery failed." := by decide +kernel

attribute [local instance] asciiUnicode in
/-- The message was sent, but the user is told that it could not be sent, since the report did not come in time. -/
theorem C75_sent_but_failed : let e := sendsms (toolModem py!"183" py!"00") { toolArgs with deliver := true } {}
    e.exit = .status 1 ∧ e.out.getLast? = some py!"Failed to send message: the send operation timed out" ∧ taken e.st.smsTrace = 1 := by decide +kernel

attribute [local instance] asciiUnicode in
/-- With `-d`, the report of another message ends the wait; the user is told nothing about the delivery. -/
theorem C75_other_report : let e := sendsms (toolModem py!"7" py!"00") { toolArgs with deliver := true, during := [reportEvent] } {}
    e.exit = .status 0 ∧ e.out.getLast? = some py!"Message sent." ∧ sentMessages e.st.smsTrace.reverse = [(7, 0)] := by decide +kernel

/-- A modem whose SIM card needs a PIN. -/
def lockedSim : Env := modemWith fun log =>
  if log.head? = some py!"AT+CPIN?\r" then some (.lines [py!"+CPIN: SIM PIN", py!"OK"]) else none

attribute [local instance] asciiUnicode in
/-- The complaint about the PIN leaves the port open, as does every uncaught exception. -/
theorem C75_pin_left_open : let e := sendsms lockedSim toolArgs {}
    e.exit = .status 1 ∧ e.err = [py!"Error: SIM card PIN required. Please specify a PIN with the -p argument.\n"] ∧ e.st.alive = true := by decide +kernel
attribute [local instance] asciiUnicode in
example : let e := sendsms goodModem toolArgs {}
    (∀ n, e.exit ≠ .status n) ∧ e.st.alive = true := by
  have : (sendsms goodModem toolArgs {}).exit = .raised (.command .command none) := by decide +kernel
  exact ⟨by simp [this], by decide +kernel⟩

example : (identify (toolModem py!"183" py!"00") none true {}).exit = .status 0 := by decide +kernel
example : (identify (toolModem py!"183" py!"00") none false {}).shown = [(py!"Manufacturer:", .text py!"ACME"), (py!"Model:", .text py!"OK"),
    (py!"Revision:", .text py!"OK"), (py!"\nIMEI:", .text py!"OK"), (py!"IMSI:", .text py!"OK"), (py!"\nNetwork:", .none), (py!"Signal strength:", .number 20)] := by
  decide +kernel
/-- The modem answers `OK` to `AT+CGMR` and then falls silent: `AT+CGMR` is asked twice, and the second time counts. -/
example : (identify (modemWith fun log => if log.take 2 = [py!"AT+CGMR\r", py!"AT+CGMR\r"] then some (.timeout none) else none) none false {}).exit =
    .raised (.timeout none) := by decide +kernel

end Gsm
