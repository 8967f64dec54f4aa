import Verif.Lemmas.Modes
import Verif.Props.Submit
import Verif.Spec.ExampleModem
/-! # Property C102: the mode of the modem makes no difference -/
namespace Gsm
open M Spec

variable {env : Env}

/-- In PDU mode, what is in the octets of a message is what `readStoredSms` makes of the answer. -/
theorem C102_pdu {m : Received} {octets : List Nat} {hex : PyStr} (h : m.Octets octets) (hh : HexOf octets hex) (state len : Nat) :
    parseCmgrPdu (pduAnswer state len hex) = .ok (.received state (some m.numberSeen) m.time m.textSeen m.smsc) := by
  obtain ⟨sca, fo, oa, pid, dcs, scts, udl, ud, rfl, h1, h2, h3, h4, h5, h6, h7, h8, h9, h10⟩ := h
  have hd := C23_deliver h1 (sender_wire h2) h3.wire h5 h6 h7 h8 h9 h10 (body_wire h4)
  have := pdu_run (.message (rest := [py!"OK"]) (pduAnswer_header state len) ((C22_hex_input hh).trans hd))
  rw [pduState_dec] at this
  exact this

/-- In text mode, the same message gets no service centre, the whole hours of the time zone, and the lines of the text joined by line feeds. -/
theorem C102_text {m : Received} {octets : List Nat} (h : m.Octets octets) (hq : 34 ∉ m.number) (read : Bool) :
    parseCmgrText (textAnswer read m) =
      .ok (.received (if read then 1 else 0) (some m.number) { m.time with off := some (.ofSeconds (wholeHours m.quarters)) }
        ([10].intercalate (textLines m.shown)) none) := by
  obtain ⟨sca, fo, oa, pid, dcs, scts, udl, ud, rfl, h1, h2, h3, h4, -⟩ := h
  have := text_run (.message (rest := textLines m.shown ++ [py!"OK"]) (textAnswer_header read ⟨sender_ne h2, hq⟩ (shownTime_quotable h3)) (state_named read).1 (clock_time h3))
  rw [List.dropLast_concat] at this
  rw [← this]
  simp [textAnswer, shownLines]

/-- C102. So a message is the same in both modes exactly if it names no service centre, the time zone is whole hours, the text has no CR LF, the modem shows the
text itself, and no `@` was lost. -/
theorem C102_same {m : Received} {octets : List Nat} {hex : PyStr} (h : m.Octets octets) (hh : HexOf octets hex) (hq : 34 ∉ m.number) (read : Bool) (len : Nat) :
    parseCmgrPdu (pduAnswer (if read then 1 else 0) len hex) = parseCmgrText (textAnswer read m) ↔
      m.smsc = none ∧ m.numberSeen = m.number ∧ 4 ∣ m.quarters ∧ m.textSeen = m.shown ∧ NoEol m.shown := by
  rw [C102_pdu h hh, C102_text h hq]
  obtain ⟨sca, fo, oa, pid, dcs, scts, udl, ud, rfl, h1, h2, h3, h4, -⟩ := h
  have e : ((if read then 1 else 0 : Nat) : Int) = if read then 1 else 0 := by cases read <;> rfl
  rw [e, ← pyJoin_eq]
  simp only [Except.ok.injEq, Msg.received.injEq, Option.some.injEq, true_and]
  rw [clock_same h3, body_same h4]
  exact ⟨fun ⟨a, b, ⟨c, c'⟩, d⟩ => ⟨d, a, b, c, c'⟩, fun ⟨d, a, b, c, c'⟩ => ⟨a, b, ⟨c, c'⟩, d⟩⟩

/-- A text in the GSM alphabet is the one shown unless a final `@` is taken for padding; a text in another alphabet only if it is empty, the modem
shows hexadecimal digits otherwise. -/
theorem C102_texts {a udl : Nat} {ud : List Nat} {seen shown : PyStr} (h : Body a udl ud seen shown) :
    (a = 0 → (seen = shown ↔ ¬ (udl % 8 = 0 ∧ shown.getLast? = some 64))) ∧ (a ≠ 0 → (seen = shown ↔ seen = [])) := body_exact h

/-- In either mode this is what `readStoredSms` returns. -/
theorem C102_read {m : Received} {octets : List Nat} {hex index : PyStr} {memory : Option PyStr} {read : Bool} {len : Nat} {s s1 : St} {r : Msg} (h : m.Octets octets)
    (hh : HexOf octets hex) (hq : 34 ∉ m.number) (hr : readStoredSms index memory env s = (.ok r, s1))
    (ha : env.reply s1.log = .lines (if s.smsTextMode then textAnswer read m else pduAnswer (if read then 1 else 0) len hex)) :
    r = if s.smsTextMode then .received (if read then 1 else 0) (some m.number) { m.time with off := some (.ofSeconds (wholeHours m.quarters)) }
          ([10].intercalate (textLines m.shown)) none
        else .received (if read then 1 else 0) (some m.numberSeen) m.time m.textSeen m.smsc := by
  obtain ⟨ok, s2, h1, h2, ⟨rfl, ls, r', h3, h4, h5⟩ | ⟨rfl, e, h5⟩⟩ := C68_read (env := env) index memory s
  · rw [hr] at h5
    obtain ⟨h6, rfl⟩ := Prod.mk.inj h5
    subst h6
    rw [ha] at h3
    have := Reply.lines.inj h3
    subst this
    have e : ((if read then 1 else 0 : Nat) : Int) = if read then 1 else 0 := by cases read <;> rfl
    unfold Answers at h4
    split at h4
    · next ht =>
      rw [if_pos ht]
      have := ((C68_text _ _).2 h4).symm.trans (C102_text h hq read)
      exact Except.ok.inj this
    · next ht =>
      rw [if_neg ht]
      have := ((C68_pdu _ _).2 h4).symm.trans (C102_pdu h hh _ len)
      rw [e] at this
      exact Except.ok.inj this
  · rw [hr] at h5
    cases (Prod.mk.inj h5).1

/-- C102 is violated by every empty text in the GSM alphabet: reading the message raises `TypeError` in PDU mode (C23); in text mode the text is empty. -/
theorem C102_empty {m : Received} {sca oa scts : List Nat} {fo pid dcs : Nat} {hex : PyStr} (h1 : AddrWire true m.smsc sca) (h2 : Sender m.number oa m.numberSeen)
    (h3 : Clock m.time m.quarters scts) (h4 : m.shown = []) (hfo : fo < 256) (hmti : fo % 4 = 0) (hudhi : fo.testBit 6 = false) (hpid : pid < 256) (hdcs : dcs < 256)
    (hgsm : decodeDataCoding dcs = 0) (hh : HexOf (deliverOctets sca fo oa pid dcs scts 0 []) hex) (hq : 34 ∉ m.number) (read : Bool) (state len : Nat) :
    parseCmgrPdu (pduAnswer state len hex) = .error .typeError ∧
      parseCmgrText (textAnswer read m) =
        .ok (.received (if read then 1 else 0) (some m.number) { m.time with off := some (.ofSeconds (wholeHours m.quarters)) } [] none) := by
  have hd := C23_empty_gsm7 h1 (sender_wire h2) h3.wire hfo hmti hudhi hpid hdcs hgsm
  refine ⟨pdu_run (.undecodable (pduAnswer_header state len) ((C22_hex_input hh).trans hd)), ?_⟩
  have := text_run (.message (rest := textLines m.shown ++ [py!"OK"]) (textAnswer_header read ⟨sender_ne h2, hq⟩ (shownTime_quotable h3)) (state_named read).1 (clock_time h3))
  rw [List.dropLast_concat, h4] at this
  refine Eq.trans ?_ this
  simp [textAnswer, shownLines, h4]

/-! ### Status reports -/

theorem textReport_header (read : Bool) (fo kind : Nat) {m : Reported} {fo' : Nat} {octets : List Nat} (h : m.Octets fo' octets) (hq : 34 ∉ m.number) :
    (∀ a b c, ¬ DeliverHeader ((textReport read fo kind m).headD []) a b c) ∧
    ReportHeader ((textReport read fo kind m).headD []) (34 :: (receivedState read ++ [34])) (decStr m.reference) m.number (shownTime m.sent m.sentQuarters)
      (shownTime m.discharged m.dischargedQuarters) (decStr m.result) := by
  obtain ⟨sca, ra, scts, dt, rest, rfl, h1, h2, h3, h4, -⟩ := h
  refine ⟨?_, ?_⟩
  · rintro a b c ⟨name, t, he, ha, -⟩
    simp only [textReport, List.headD_cons, List.append_assoc] at he
    have he := List.append_cancel_left he
    obtain ⟨-, he⟩ := upto_unique (x := 34) (state_named read).2.2 ha.2 he
    have he := (List.cons.inj he).2
    have hd := digits_decStr fo
    cases hf : decStr fo with
    | nil => exact hd.1 hf
    | cons c cs =>
      rw [hf] at he
      have := hd.2 c (by rw [hf]; simp)
      have h34 : c = 34 := (List.cons.inj he).1
      omega
  · refine ⟨decStr fo, [34], [34], decStr kind, [], by simp [textReport], ?_, digits_decStr fo, digits_decStr _, .inr rfl, .inr rfl, hq, (digits_decStr kind).2,
      shownTime_quotable h3, shownTime_quotable h4, digits_decStr _, .inl rfl⟩
    cases read <;> decide

/-- A status report in PDU mode. -/
theorem C102_report_pdu {m : Reported} {fo : Nat} {octets : List Nat} {hex : PyStr} (h : m.Octets fo octets) (hh : HexOf octets hex) (state len : Nat) :
    parseCmgrPdu (pduAnswer state len hex) = .ok (.report state m.reference (some m.numberSeen) m.sent m.discharged m.result) := by
  obtain ⟨sca, ra, scts, dt, rest, rfl, h1, h2, h3, h4, h5, h6, h7, h8, h9⟩ := h
  have hd := C25_status_report h1 (sender_wire h2) h3.wire h4.wire h5 h6 h7 h8 h9
  have := pdu_run (.report (rest := [py!"OK"]) (pduAnswer_header state len) ((C22_hex_input hh).trans hd))
  rw [pduState_dec] at this
  exact this

/-- A status report in text mode. -/
theorem C102_report_text {m : Reported} {fo kind : Nat} {octets : List Nat} (h : m.Octets fo octets) (hq : 34 ∉ m.number) (read : Bool) :
    parseCmgrText (textReport read fo kind m) =
      .ok (.report (if read then 1 else 0) m.reference (some m.number) { m.sent with off := some (.ofSeconds (wholeHours m.sentQuarters)) }
        { m.discharged with off := some (.ofSeconds (wholeHours m.dischargedQuarters)) } m.result) := by
  obtain ⟨g1, g2⟩ := textReport_header read fo kind h hq
  obtain ⟨sca, ra, scts, dt, rest, rfl, h1, h2, h3, h4, -⟩ := h
  have := text_run (.report (rest := [py!"OK"]) g1 g2 (.named .quoted (state_named read).1) (clock_time h3) (clock_time h4))
  rw [decVal_decStr, decVal_decStr] at this
  exact this

/-- C102. A status report is the same in both modes exactly if both time zones are whole hours (and no `@` was lost). -/
theorem C102_report_same {m : Reported} {fo kind : Nat} {octets : List Nat} {hex : PyStr} (h : m.Octets fo octets) (hh : HexOf octets hex) (hq : 34 ∉ m.number)
    (read : Bool) (len : Nat) :
    parseCmgrPdu (pduAnswer (if read then 1 else 0) len hex) = parseCmgrText (textReport read fo kind m) ↔
      m.numberSeen = m.number ∧ 4 ∣ m.sentQuarters ∧ 4 ∣ m.dischargedQuarters := by
  rw [C102_report_pdu h hh, C102_report_text h hq]
  obtain ⟨sca, ra, scts, dt, rest, rfl, h1, h2, h3, h4, -⟩ := h
  have e : ((if read then 1 else 0 : Nat) : Int) = if read then 1 else 0 := by cases read <;> rfl
  rw [e]
  simp only [Except.ok.injEq, Msg.report.injEq, Option.some.injEq, true_and, and_true]
  rw [clock_same h3, clock_same h4]

/-! ### Sending -/

/-- In text mode the request for a flash message is ignored. -/
theorem C102_flash [PyUnicode] (destination text : PyStr) {s : St} (h : s.smsTextMode = true) : sendSms destination text true env s = sendSms destination text false env s := by
  unfold sendSms
  simp only [run_bind, run_get]
  rw [h]
  rfl

/-- After `AT+CSMP=49,167,0,0` the modem sends in text mode what the library would send in PDU mode had it asked for a validity of one day: -/
theorem C102_settings [PyUnicode] {number text : PyStr} {reference : Int} {p : Pdu} {F : SubmitFields}
    (h : encodeSmsSubmitPdu number text reference = .ok [p]) (hF : IsSubmit number none .none p F) (ha : ∀ c ∈ text, Encodable c) :
    ∃ p', encodeSmsSubmitPdu number text reference (.relative (.ofSeconds 86400)) = .ok [p'] ∧ IsSubmit number none (.relative (.ofSeconds 86400)) p' (byTextMode F) := by
  obtain ⟨vbits, vpi, alphabet, h1, h2, h3⟩ := encodeSmsSubmitPdu_ok_iff.1 h
  cases h1
  obtain rfl : alphabet = 0 := by
    rcases chooseAlphabet_ok h2 with ⟨_, rfl⟩ | ⟨hn, _⟩
    · rfl
    · exact absurd ha hn
  have hp : partsOf text 0 = none := by
    have hl := h3.length_eq
    unfold partsOf at hl ⊢
    split at hl
    · next hc =>
      rw [List.length_range] at hl
      simp only [Option.getD_some, List.length_cons, List.length_nil] at hl
      have h160 : maxMessageLength 0 = 160 := rfl
      rw [h160] at hl hc
      omega
    · next hc => rw [if_neg hc]
  rw [hp] at h3
  have h4 : submitPart number text reference none false (foOf 0 false true false) [] 0 none 0 = .ok p := by
    cases h3 with
    | cons h _ => exact h
  obtain ⟨sca, mr, da, vp, udh, ptext, ud, e1, e2, e3, e4, e5, e6, rfl⟩ := submitPart_ok_iff.1 h4
  obtain ⟨udl, body, he, -⟩ := userDataPart_ok e6
  subst he
  have hG : ∀ (fo : Nat) (v : Validity) (w : List Nat), w.length = vpLength v → IsSubmit number none v
      ⟨sca ++ fo :: mr :: da ++ 0x00 :: dcsOf false 0 :: w ++ (udl :: (if udh = [] then body else udh.length :: udh ++ body)),
        (sca ++ fo :: mr :: da ++ 0x00 :: dcsOf false 0 :: w ++ (udl :: (if udh = [] then body else udh.length :: udh ++ body))).length - 1⟩
      ⟨sca, fo, mr, da, 0, 0, w, udl, if udh = [] then body else udh.length :: udh ++ body⟩ := fun fo v w hw =>
    ⟨by simp [SubmitFields.octets, SubmitFields.tpdu, dcsOf], e1, e4, hw⟩
  have hvp : vp = [] := by cases e5; rfl
  subst hvp
  obtain rfl := hF.unique (hG _ _ _ rfl)
  have hv : validityPart (.relative (.ofSeconds 86400)) = .ok (16, [167]) := by
    have : encodeRelativeValidityPeriod (.ofSeconds 86400) = .ok 167 := by decide +kernel
    simp only [validityPart, this]
    rfl
  refine ⟨_, encodeSmsSubmitPdu_ok_iff.2 ⟨16, [167], 0, hv, h2, ?_⟩, hG 49 _ [167] rfl⟩
  rw [hp]
  exact .cons (submitPart_ok_iff.2 ⟨sca, mr, da, [167], udh, ptext, _, e1, e2, e3, e4, rfl, e6, rfl⟩) .nil

/-- which it does not: no validity period is in the messages sent in PDU mode. -/
theorem C102_no_validity [PyUnicode] {number text : PyStr} {reference : Int} {flash : Bool} {ps : List Pdu}
    (h : encodeSmsSubmitPdu number text reference (sendFlash := flash) = .ok ps) : ∀ p ∈ ps, ∃ F, IsSubmit number none .none p F ∧ F ≠ byTextMode F := by
  intro p hp
  obtain ⟨F, hF, -⟩ := C16_first_octet h p hp
  refine ⟨F, hF, fun e => ?_⟩
  have := hF.vp
  rw [e] at this
  cases this

/-! ### Examples -/

/-- A message from India, where clocks are five and a half hours ahead. -/
def indian : Received :=
  ⟨none, py!"+27123", ⟨2013, 3, 14, 13, 2, 35, 0, some (.ofSeconds 19800)⟩, 22, py!"+27123", py!"hi", py!"hi"⟩

/-- The same from a place two hours ahead. -/
def african : Received := { indian with time := ⟨2013, 3, 14, 13, 2, 35, 0, some (.ofSeconds 7200)⟩, quarters := 8 }

def indianOctets : List Nat := deliverOctets [0] 0x04 [5, 0x91, 0x72, 0x21, 0xF3] 0 0 [0x31, 0x30, 0x41, 0x31, 0x20, 0x53, 0x22] 2 [0xE8, 0x34]
def africanOctets : List Nat := deliverOctets [0] 0x04 [5, 0x91, 0x72, 0x21, 0xF3] 0 0 [0x31, 0x30, 0x41, 0x31, 0x20, 0x53, 0x80] 2 [0xE8, 0x34]

theorem indian_sender : Sender py!"+27123" [5, 0x91, 0x72, 0x21, 0xF3] py!"+27123" :=
  .digits (toa := 0x91) (ds := py!"27123") (by decide) (by decide) (by unfold IsDigits; decide) (by decide) (by decide)

theorem indian_body : Body 0 2 [0xE8, 0x34] py!"hi" py!"hi" :=
  .gsm7 (code := [0x68, 0x69]) (t := py!"hi") (by decide)
    ⟨.cons (code := [0x68]) (.inl ⟨0x68, by decide, by decide, rfl, by decide⟩)
      (.cons (code := [0x69]) (.inl ⟨0x69, by decide, by decide, rfl, by decide⟩) .nil), by decide, by decide⟩
    ⟨by decide, 2, by decide, by decide⟩

theorem indian_octets : indian.Octets indianOctets :=
  ⟨_, _, _, _, _, _, _, _, rfl, .absent, indian_sender,
    ⟨.mk (neg := false) (q := 22) (by decide) (by decide) (by decide) rfl (by decide) (by decide), by decide⟩, indian_body, by decide, by decide, by decide, by decide, by decide, by decide⟩

theorem african_octets : african.Octets africanOctets :=
  ⟨_, _, _, _, _, _, _, _, rfl, .absent, indian_sender,
    ⟨.mk (neg := false) (q := 8) (by decide) (by decide) (by decide) rfl (by decide) (by decide), by decide⟩, indian_body, by decide, by decide, by decide, by decide, by decide, by decide⟩

/-- C102 is violated: the message from India comes half an hour off in text mode. -/
theorem C102_violated : indian.Octets indianOctets ∧ HexOf indianOctets (pduHex indianOctets) ∧
    parseCmgrPdu (pduAnswer 1 18 (pduHex indianOctets)) ≠ parseCmgrText (textAnswer true indian) ∧
    parseCmgrPdu (pduAnswer 1 18 (pduHex indianOctets)) = .ok (.received 1 (some py!"+27123") ⟨2013, 3, 14, 13, 2, 35, 0, some ⟨0, 19800, 0⟩⟩ py!"hi" none) ∧
    parseCmgrText (textAnswer true indian) = .ok (.received 1 (some py!"+27123") ⟨2013, 3, 14, 13, 2, 35, 0, some ⟨0, 18000, 0⟩⟩ py!"hi" none) := by
  have hh := (C22_str_pdu (os := indianOctets) (by decide)).1
  refine ⟨indian_octets, hh, ?_, ?_, ?_⟩
  · intro h
    have := (C102_same indian_octets hh (by decide) true 18).1 h
    exact absurd this.2.2.1 (by decide)
  · exact C102_pdu indian_octets hh 1 18
  · exact C102_text indian_octets (by decide) true

/-- The other one is the same in both modes. -/
example : parseCmgrPdu (pduAnswer 1 18 (pduHex africanOctets)) = parseCmgrText (textAnswer true african) :=
  (C102_same african_octets (C22_str_pdu (os := africanOctets) (by decide)).1 (by decide) true 18).2 ⟨rfl, rfl, by decide, rfl,
    noEol_of (by decide)⟩

example : textAnswer true african = [py!"+CMGR: \"REC READ\",\"+27123\",,\"13/03/14,13:02:35+08\"", py!"hi", py!"OK"] := by decide +kernel

/-- A text in another alphabet: the modem shows digits. -/
example : Body 2 4 [0x4F, 0x60, 0x59, 0x7D] [0x4F60, 0x597D] py!"4F60597D" :=
  .ucs2 (t := [0x4F60, 0x597D]) (by decide) (of_unhex (by decide))

/-- A report. -/
def reportFromIndia : Reported :=
  ⟨none, 20, py!"+27123", py!"+27123", ⟨2013, 3, 14, 13, 2, 35, 0, some (.ofSeconds 19800)⟩, 22, ⟨2013, 3, 14, 13, 2, 35, 0, some (.ofSeconds 7200)⟩, 8, 0⟩

example : textReport true 6 145 reportFromIndia = [py!"+CMGR: \"REC READ\",6,20,\"+27123\",145,\"13/03/14,13:02:35+22\",\"13/03/14,13:02:35+08\",0", py!"OK"] := by
  decide +kernel

example : reportFromIndia.Octets 6 (statusReportOctets [0] 6 20 [5, 0x91, 0x72, 0x21, 0xF3] [0x31, 0x30, 0x41, 0x31, 0x20, 0x53, 0x22] [0x31, 0x30, 0x41, 0x31, 0x20, 0x53, 0x80] 0 []) :=
  ⟨_, _, _, _, _, rfl, .absent, indian_sender,
    ⟨.mk (neg := false) (q := 22) (by decide) (by decide) (by decide) rfl (by decide) (by decide), by decide⟩,
    ⟨.mk (neg := false) (q := 8) (by decide) (by decide) (by decide) rfl (by decide) (by decide), by decide⟩, by decide, by decide, by decide, by decide, by simp⟩

attribute [local instance] asciiUnicode in
/-- In PDU mode a flash message is another message; in text mode nothing tells it from others. -/
example : (sendSms py!"+2783" py!"Hi" true goodModem {}).2.log ≠ (sendSms py!"+2783" py!"Hi" false goodModem {}).2.log ∧
    (sendSms py!"+2783" py!"Hi" true goodModem { smsTextMode := true }).2.log = [py!"Hi" ++ [26], py!"AT+CMGS=\"+2783\"\r"] := by decide +kernel

attribute [local instance] asciiUnicode in
/-- With and without a validity of one day. -/
example : (encodeSmsSubmitPdu py!"+2783" py!"Hi" 0).map (·.map (·.data)) = .ok [[0, 33, 0, 4, 0x91, 0x72, 0x38, 0, 0, 2, 0xC8, 0x34]] ∧
    (encodeSmsSubmitPdu py!"+2783" py!"Hi" 0 (.relative (.ofSeconds 86400))).map (·.map (·.data)) = .ok [[0, 49, 0, 4, 0x91, 0x72, 0x38, 0, 0, 167, 2, 0xC8, 0x34]] := by
  decide +kernel

end Gsm
