import Verif.Props.ModemReference
import Verif.Lemmas.ModemTrans
/-! # Property C38: what `sendSms` writes; status reports (C39) -/
namespace Gsm
open M Spec

variable {env : Env}

/-- The commands for one PDU. -/
def pduCommands (p : Pdu) : List PyStr := [py!"AT+CMGS=" ++ decStr p.tpduLength ++ [13], pduHex p.data ++ [26]]

/-- Writing a command and then something else. -/
theorem transmit_cons {α : Type} {data term : PyStr} {cs : List PyStr} {f : List PyStr → M α} {s : St} {Q : List PyStr → Except PyErr α → Prop}
    (h : ∀ ls s1, OnlyLog s s1 → env.reply s1.log = .lines ls → ∃ ok, Transmission env.reply cs s1.log (f ls env s1).2.log ok ∧
      OnlyLog s1 (f ls env s1).2 ∧ (ok = false → ∃ e, (f ls env s1).1 = .error e) ∧ (ok = true → Q (f ls env s1).2.log (f ls env s1).1)) :
    ∃ ok, Transmission env.reply ((data ++ term) :: cs) s.log ((write data true term >>= f) env s).2.log ok ∧
      OnlyLog s ((write data true term >>= f) env s).2 ∧ (ok = false → ∃ e, ((write data true term >>= f) env s).1 = .error e) ∧
      (ok = true → Q ((write data true term >>= f) env s).2.log ((write data true term >>= f) env s).1) := by
  obtain ⟨k, w, h1, h2, h3⟩ := write_outcome (data := data) (term := term) (env := env) s
  have hstop : ∀ e, (0 < k → ¬ Accepted env.reply (List.replicate k (data ++ term) ++ s.log)) →
      write data true term env s = (.error e, { s with log := List.replicate k (data ++ term) ++ s.log, writeWait := w }) →
      ∃ ok, Transmission env.reply ((data ++ term) :: cs) s.log ((write data true term >>= f) env s).2.log ok ∧
      OnlyLog s ((write data true term >>= f) env s).2 ∧ (ok = false → ∃ e, ((write data true term >>= f) env s).1 = .error e) ∧
      (ok = true → Q ((write data true term >>= f) env s).2.log ((write data true term >>= f) env s).1) := by
    intro e hna he
    have hb : (write data true term >>= f) env s = (.error e, { s with log := List.replicate k (data ++ term) ++ s.log, writeWait := w }) := by
      rw [run_bind, he]
    rw [hb]
    exact ⟨false, .stop h2 hna, ⟨_, w, rfl⟩, fun _ => ⟨e, rfl⟩, fun h => by cases h⟩
  rcases h3 with ⟨ls, h4, hk, h5, h6⟩ | ⟨d, h4, hk, h5⟩ | ⟨e, h4, _, h6⟩
  · have he : write data true term env s = (.ok ls, { s with log := List.replicate k (data ++ term) ++ s.log, writeWait := w }) := Prod.ext h4 h1
    have hb : (write data true term >>= f) env s = f ls env { s with log := List.replicate k (data ++ term) ++ s.log, writeWait := w } := by
      rw [run_bind, he]
    rw [hb]
    obtain ⟨ok, k1, ⟨l', w', k2⟩, k3, k4⟩ := h ls _ ⟨_, w, rfl⟩ h5
    refine ⟨ok, .next hk h2 h6 k1, ⟨l', w', ?_⟩, k3, k4⟩
    rw [k2]
  · refine hstop _ ?_ (Prod.ext h4 h1)
    rintro _ ⟨ls, line, h7, _⟩
    rw [h5] at h7; cases h7
  · exact hstop _ h6 (Prod.ext h4 h1)

/-- The first `+CMGS:` line of the answer to the last PDU. -/
def cmgsLine (ls : List PyStr) : Option PyStr := ls.find? fun l => py!"+CMGS:".isPrefixOf l

theorem lineStartingWith_find (p : PyStr) (ls : List PyStr) : lineStartingWith p ls = ls.find? fun l => p.isPrefixOf l := by
  induction ls with
  | nil => rfl
  | cons l ls ih =>
    simp only [lineStartingWith, List.find?_cons]
    split
    · next h => simp [h]
    · next h => simp only [Bool.not_eq_true] at h; rw [h]; exact ih

theorem sendPdus_spec : ∀ (ps : List Pdu) (r : Option PyStr) (s : St),
    ∃ ok, Transmission env.reply (ps.flatMap pduCommands) s.log (sendPdus ps r env s).2.log ok ∧
      OnlyLog s (sendPdus ps r env s).2 ∧ (ok = false → ∃ e, (sendPdus ps r env s).1 = .error e) ∧
      (ok = true → (sendPdus ps r env s).1 = .ok (if ps = [] then r else cmgsLine (lastAnswer env (sendPdus ps r env s).2.log)))
  | [], r, s => ⟨true, .done, ⟨s.log, s.writeWait, rfl⟩, fun h => (nomatch h), fun _ => rfl⟩
  | p :: ps, r, s => by
    have hc : (p :: ps).flatMap pduCommands = (py!"AT+CMGS=" ++ decStr p.tpduLength ++ [13]) :: (pduHex p.data ++ [26]) :: ps.flatMap pduCommands := rfl
    rw [hc]
    unfold sendPdus
    refine transmit_cons (Q := fun l x => x = .ok (if p :: ps = [] then r else cmgsLine (lastAnswer env l))) fun ls s1 _ _ => ?_
    refine transmit_cons (Q := fun l x => x = .ok (if p :: ps = [] then r else cmgsLine (lastAnswer env l))) fun ls2 s2 _ hr => ?_
    obtain ⟨ok, h1, h2, h3, h4⟩ := sendPdus_spec ps (lineStartingWith py!"+CMGS:" ls2) s2
    refine ⟨ok, h1, h2, h3, fun hok => ?_⟩
    rw [h4 hok]
    by_cases hps : ps = []
    · subst hps
      simp [sendPdus, run_pure, lastAnswer, hr, lineStartingWith_find, cmgsLine]
    · simp [hps]

/-- What follows when everything has been accepted, with the answer `ls` to the last command. -/
def SendResult (destination text : PyStr) (s s' : St) (ls : List PyStr) (x : Except PyErr Nat) : Prop :=
  (cmgsLine ls = none → x = .error (.command .command none) ∧ OnlyLog s s') ∧
  (∀ l, cmgsLine ls = some l →
    (∀ e, pyInt (l.drop 7) = .error e → x = .error e ∧ OnlyLog s s') ∧
    (∀ r, pyInt (l.drop 7) = .ok r → x = .ok s.sent.length ∧ s'.sent = s.sent ++ [⟨destination, text, r, none⟩] ∧
      s'.smsTrace = .sent r :: s.smsTrace))

/-- Everything that is written and its consequences. -/
def SendSpec (env : Env) (commands : List PyStr) (destination text : PyStr) (s s' : St) (x : Except PyErr Nat) : Prop :=
  ∃ ok, Transmission env.reply commands s.log s'.log ok ∧
    (ok = false → (∃ e, x = .error e) ∧ OnlyLog s s') ∧
    (ok = true → SendResult destination text s s' (lastAnswer env s'.log) x)

/-- The part of `sendSms` that writes. -/
def sendCommands [PyUnicode] (destination text : PyStr) (sendFlash : Bool) (s : St) : M (Option PyStr) :=
  if s.smsTextMode then do
    let _ ← write (py!"AT+CMGS=\"" ++ destination ++ py!"\"")
    let ls ← write text true [26]
    pure (lineStartingWith py!"+CMGS:" ls)
  else do
    let pdus ← ofExcept (encodeSmsSubmitPdu destination text s.smsRef (sendFlash := sendFlash))
    sendPdus pdus none

/-- The rest. -/
def sendFinish (destination text : PyStr) (i : Nat) : Option PyStr → M Nat
  | none => raise (.command .command none)
  | some result => do
    let reference ← ofExcept (pyInt (result.drop 7))
    recordSent destination text reference
    pure i

theorem sendSms_eq [PyUnicode] (destination text : PyStr) (flash : Bool) (s : St) :
    sendSms destination text flash env s = (sendCommands destination text flash s >>= sendFinish destination text s.sent.length) env s := by
  have hf : ∀ x, (match x with | none => raise (.command .command none) | some result => do
      let reference ← ofExcept (pyInt (result.drop 7))
      recordSent destination text reference
      pure s.sent.length) = sendFinish destination text s.sent.length x := by
    intro x; cases x <;> rfl
  unfold sendSms sendCommands
  rw [run_bind, run_get]
  dsimp only
  cases hm : s.smsTextMode
  · simp only [Bool.false_eq_true, if_false, run_bind, hf]
    cases ofExcept (encodeSmsSubmitPdu destination text s.smsRef (sendFlash := flash)) env s with
    | mk x s1 => cases x <;> rfl
  · simp only [if_true, run_bind, hf]
    cases write (py!"AT+CMGS=\"" ++ destination ++ py!"\"") true [13] env s with
    | mk x s1 =>
      cases x with
      | error e => rfl
      | ok ls =>
        dsimp only
        cases write text true [26] env s1 with
        | mk x s2 => cases x <;> rfl

theorem send_spec [PyUnicode] {destination text : PyStr} {flash : Bool} {s : St} {commands : List PyStr}
    (h : ∃ ok, Transmission env.reply commands s.log (sendCommands destination text flash s env s).2.log ok ∧
      OnlyLog s (sendCommands destination text flash s env s).2 ∧ (ok = false → ∃ e, (sendCommands destination text flash s env s).1 = .error e) ∧
      (ok = true → (sendCommands destination text flash s env s).1 = .ok (cmgsLine (lastAnswer env (sendCommands destination text flash s env s).2.log)))) :
    SendSpec env commands destination text s (sendSms destination text flash env s).2 (sendSms destination text flash env s).1 := by
  obtain ⟨ok, h1, ⟨l, w, h2⟩, h3, h4⟩ := h
  rw [sendSms_eq, run_bind]
  cases hp : sendCommands destination text flash s env s with
  | mk x s1 =>
    rw [hp] at h1 h2 h3 h4
    dsimp only at h1 h2 h3 h4
    subst h2
    cases ok with
    | false =>
      obtain ⟨e, rfl⟩ := h3 rfl
      exact ⟨false, h1, fun _ => ⟨⟨e, rfl⟩, l, w, rfl⟩, fun h => by cases h⟩
    | true =>
      have hx := h4 rfl
      subst hx
      dsimp only
      cases hc : cmgsLine (lastAnswer env l) with
      | none =>
        refine ⟨true, h1, fun h => (nomatch h), fun _ => ?_⟩
        simp only [sendFinish, run_raise]
        exact ⟨fun _ => ⟨rfl, l, w, rfl⟩, fun l' hl => by rw [hc] at hl; cases hl⟩
      | some line =>
        have hne : ∀ {s' : St} {x}, s'.log = l → (∀ e, pyInt (line.drop 7) = .error e → x = .error e ∧ OnlyLog s s') →
            (∀ r, pyInt (line.drop 7) = .ok r → x = .ok s.sent.length ∧ s'.sent = s.sent ++ [⟨destination, text, r, none⟩] ∧
              s'.smsTrace = .sent r :: s.smsTrace) → SendResult destination text s s' (lastAnswer env s'.log) x := by
          intro s' x hl k1 k2
          rw [hl]
          refine ⟨fun h => (by rw [hc] at h; cases h), fun l' hl' => ?_⟩
          rw [hc] at hl'; cases hl'
          exact ⟨k1, k2⟩
        simp only [sendFinish, run_bind, run_ofExcept]
        cases hi : pyInt (line.drop 7) with
        | error e =>
          exact ⟨true, h1, fun h => (nomatch h), fun _ => hne rfl (fun e' he => by rw [hi] at he; cases he; exact ⟨rfl, l, w, rfl⟩)
            (fun r hr => by rw [hi] at hr; cases hr)⟩
        | ok r =>
          exact ⟨true, h1, fun h => (nomatch h), fun _ => hne rfl (fun e' he => by rw [hi] at he; cases he)
            (fun r hr => by rw [hi] at hr; cases hr; exact ⟨rfl, rfl, rfl⟩)⟩

theorem encode_ne_nil [PyUnicode] {number text : PyStr} {r : Int} {validity : Validity} {smsc : Option PyStr} {srr rd flash : Bool}
    (h : encodeSmsSubmitPdu number text r validity smsc srr rd flash = .ok []) : False := by
  obtain ⟨_, _, alphabet, _, _, h3⟩ := encodeSmsSubmitPdu_ok_iff.1 h
  have := h3.length_eq
  unfold partsOf at this
  split at this <;> simp at this

/-- In PDU mode the commands for the parts are written in order, up to the first failure; the new message has
the reference from the answer to the last one. -/
theorem C38_pdu_mode [PyUnicode] {destination text : PyStr} {flash : Bool} {s : St} {pdus : List Pdu} (hm : s.smsTextMode = false)
    (he : encodeSmsSubmitPdu destination text s.smsRef (sendFlash := flash) = .ok pdus) :
    SendSpec env (pdus.flatMap pduCommands) destination text s (sendSms destination text flash env s).2 (sendSms destination text flash env s).1 := by
  refine send_spec ?_
  have hx : sendCommands destination text flash s env s = sendPdus pdus none env s := by
    simp [sendCommands, hm, he, run_bind, run_ofExcept]
  rw [hx]
  obtain ⟨ok, h1, h2, h3, h4⟩ := sendPdus_spec (env := env) pdus none s
  refine ⟨ok, h1, h2, h3, fun hok => ?_⟩
  have hn : pdus ≠ [] := by rintro rfl; exact encode_ne_nil he
  rw [h4 hok, if_neg hn]

/-- When the message cannot be encoded nothing is written and nothing changes. -/
theorem C38_not_encodable [PyUnicode] {destination text : PyStr} {flash : Bool} {s : St} {e : PyErr} (hm : s.smsTextMode = false)
    (he : encodeSmsSubmitPdu destination text s.smsRef (sendFlash := flash) = .error e) : sendSms destination text flash env s = (.error e, s) := by
  rw [sendSms_eq, run_bind]
  simp [sendCommands, hm, he, run_bind, run_ofExcept]

/-- In text mode the destination and the text are written. -/
theorem C38_text_mode [PyUnicode] {destination text : PyStr} {flash : Bool} {s : St} (hm : s.smsTextMode = true) :
    SendSpec env [py!"AT+CMGS=\"" ++ destination ++ py!"\"" ++ [13], text ++ [26]] destination text s
      (sendSms destination text flash env s).2 (sendSms destination text flash env s).1 := by
  refine send_spec ?_
  unfold sendCommands
  rw [if_pos hm]
  refine transmit_cons (Q := fun l x => x = .ok (cmgsLine (lastAnswer env l))) fun ls s1 _ _ => ?_
  refine transmit_cons (Q := fun l x => x = .ok (cmgsLine (lastAnswer env l))) fun ls2 s2 _ hr => ?_
  refine ⟨true, .done, ⟨s2.log, s2.writeWait, rfl⟩, fun h => (nomatch h), fun _ => ?_⟩
  simp [run_pure, lastAnswer, hr, lineStartingWith_find, cmgsLine]

attribute [local instance] asciiUnicode in
example : (sendSms py!"12" py!"Hi" false (cmgsModem py!"+CMGS: 5") {}).2.log.reverse =
    [py!"AT+CMGS=10\r", py!"00210002A121000002C834" ++ [26]] ∧
    (sendSms py!"12" py!"Hi" false (cmgsModem py!"+CMGS: 5") {}).2.sent = [⟨py!"12", py!"Hi", 5, none⟩] := by decide +kernel
attribute [local instance] asciiUnicode in
example : (sendSms py!"12" py!"Hi" false (cmgsModem py!"+CMGS: 5") { smsTextMode := true }).2.log.reverse =
    [py!"AT+CMGS=\"12\"\r", py!"Hi" ++ [26]] := by decide +kernel

/-- A modem that is busy when it gets the first message. -/
def busyModem : Env := modemWith fun log =>
  if log.length = 2 then some (.lines [py!"+CMS ERROR: 515"]) else some (.lines [py!"+CMGS: 5", py!"OK"])

attribute [local instance] asciiUnicode in
/-- When the modem is busy the message itself is written again, without the command that announces it. -/
theorem C38_resent_without_command : (sendSms py!"12" py!"Hi" false busyModem {}).2.log.reverse =
    [py!"AT+CMGS=10\r", py!"00210002A121000002C834" ++ [26], py!"00210002A121000002C834" ++ [26]] := by decide +kernel

/-! ### C39: handling of status reports -/

theorem sf_read (i : PyStr) (m : Option PyStr) : Steps env (Frame (fun _ => True) fun s => (smsPart s, s.callbacks, s.smsStatusReportEvent)) (readStoredSms i m) := by
  have hw : ∀ {data term : PyStr} {pe : Bool}, Steps env (Frame (fun _ => True) fun s => (smsPart s, s.callbacks, s.smsStatusReportEvent)) (write data pe term) :=
    frame_write trivial fun _ _ _ => rfl
  unfold readStoredSms setSmsMemory
  (steps frame_pre) <;> first | exact hw | exact frame_same rfl rfl
theorem sf_delete (i : PyStr) (m : Option PyStr) : Steps env (Frame (fun _ => True) fun s => (smsPart s, s.callbacks, s.smsStatusReportEvent)) (deleteStoredSms i m) := by
  have hw : ∀ {data term : PyStr} {pe : Bool}, Steps env (Frame (fun _ => True) fun s => (smsPart s, s.callbacks, s.smsStatusReportEvent)) (write data pe term) :=
    frame_write trivial fun _ _ _ => rfl
  unfold deleteStoredSms setSmsMemory
  (steps frame_pre) <;> first | exact hw | exact frame_same rfl rfl

/-- A notification about a status report: what is read is deleted and then counts; a waiting `sendSms` is
woken, otherwise the callback is called. -/
theorem C39_report_handled {line mem idx : PyStr} {s s1 s2 : St} {st r ds : Int} {n : Option PyStr} {t1 t2 : DateTime}
    (hl : rxGroups cdsiRegex line = some [mem, idx])
    (hr : readStoredSms idx (some mem) env s = (.ok (.report st r n t1 t2 ds), s1)) (hd : deleteStoredSms idx none env s1 = (.ok (), s2)) :
    (handleSmsStatusReport line env s).1 = .ok () ∧ (handleSmsStatusReport line env s).2.smsTrace = .report r ds :: s.smsTrace ∧
    (handleSmsStatusReport line env s).2.log = s2.log ∧
    (s.smsStatusReportEvent.isSome → (handleSmsStatusReport line env s).2.smsStatusReportEvent = some true ∧
      (handleSmsStatusReport line env s).2.callbacks = s.callbacks) ∧
    (s.smsStatusReportEvent = none → (handleSmsStatusReport line env s).2.smsStatusReportEvent = none ∧
      (handleSmsStatusReport line env s).2.callbacks = .statusReport (.report st r n t1 t2 ds) :: s.callbacks) := by
  have h1 := ((sf_read (env := env) idx (some mem)).run s).2
  have h2 := ((sf_delete (env := env) idx none).run s1).2
  rw [hr] at h1
  rw [hd] at h2
  simp only [Prod.mk.injEq, smsPart] at h1 h2
  obtain ⟨⟨_, _, _, ht⟩, hcb, hev⟩ := h1
  obtain ⟨⟨_, _, _, ht'⟩, hcb', hev'⟩ := h2
  have e3 : s2.smsStatusReportEvent = s.smsStatusReportEvent := hev'.trans hev
  have e2 : s2.callbacks = s.callbacks := hcb'.trans hcb
  have e1 : s2.smsTrace = s.smsTrace := ht'.trans ht
  simp only [handleSmsStatusReport, hl, run_bind, hr, hd, updateSent, run_modify, run_get, run_ite, callback]
  cases hs : s.smsStatusReportEvent with
  | none =>
    rw [hs] at e3
    simp [e1, e2, e3]
  | some b =>
    rw [hs] at e3
    simp [e1, e2, e3]

/-- When what is read is not a status report it is deleted all the same, and nobody gets it. -/
theorem C39_message_lost {line mem idx : PyStr} {s s1 s2 : St} {st : Int} {n : Option PyStr} {t : DateTime} {text : PyStr} {smsc : Option PyStr}
    (hl : rxGroups cdsiRegex line = some [mem, idx])
    (hr : readStoredSms idx (some mem) env s = (.ok (.received st n t text smsc), s1)) (hd : deleteStoredSms idx none env s1 = (.ok (), s2)) :
    handleSmsStatusReport line env s = (.error .attributeError, s2) ∧ s2.callbacks = s.callbacks := by
  have h1 := ((sf_read (env := env) idx (some mem)).run s).2
  have h2 := ((sf_delete (env := env) idx none).run s1).2
  rw [hr] at h1
  rw [hd] at h2
  simp only [Prod.mk.injEq] at h1 h2
  refine ⟨?_, h2.2.1.trans h1.2.1⟩
  simp only [handleSmsStatusReport, hl, run_bind, hr, hd, run_raise]

/-- A modem with a status report for reference 20; messages get reference 5. -/
def reportModem (status : PyStr) : Env := modemWith fun log =>
  if log.head? = some py!"AT+CMGR=3\r" then
    some (.lines [py!"+CMGR: ,6," ++ status ++ py!",\"0870000000\",129,\"13/04/29,19:58:00+04\",\"13/04/29,19:59:00+04\",0", py!"OK"])
  else if (log.head?.getD []).getLast? = some 26 then some (.lines [py!"+CMGS: 5", py!"OK"])
  else none

/-- The notification about it. -/
def reportEvent : Event := .notify [py!"+CDSI: \"SM\",3"]

attribute [local instance] asciiUnicode in
example : (runOps (reportModem py!"5") [.send py!"12" py!"Hi" false, .event reportEvent, .send py!"13" py!"Hi" false] { smsTextMode := true }).sent.map
    (fun x => (x.number, x.reference, x.status)) = [(py!"12", 5, 1), (py!"13", 5, 0)] := by decide +kernel

attribute [local instance] asciiUnicode in
/-- A report for another message ends the wait. -/
theorem C39_wait_any_report : (sendSmsWait py!"12" py!"Hi" false [] [reportEvent] (reportModem py!"20") { smsTextMode := true }).1 = .ok 0 ∧
    (sendSmsWait py!"12" py!"Hi" false [] [reportEvent] (reportModem py!"20") { smsTextMode := true }).2.sent.map (·.status) = [0] := by decide +kernel

attribute [local instance] asciiUnicode in
/-- A report that comes before the wait starts is not noticed: the message is delivered, but the wait times out. -/
theorem C39_report_too_early : (sendSmsWait py!"12" py!"Hi" false [reportEvent] [] (reportModem py!"5") { smsTextMode := true }).1 = .error (.timeout none) ∧
    (sendSmsWait py!"12" py!"Hi" false [reportEvent] [] (reportModem py!"5") { smsTextMode := true }).2.sent.map (·.status) = [1] := by decide +kernel

end Gsm
