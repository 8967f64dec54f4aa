import Verif.Lemmas.ModemFrame
import Verif.Spec.SentSms
import Verif.Spec.ExampleModem
import Verif.Lemmas.Submit
/-! # Properties C37 and C39: message references and delivery status -/
namespace Gsm
open M Spec

variable {env : Env}

/-- What sending and reports change. -/
def smsPart (s : St) : Int × List (Int × Nat) × List Sent × List SmsEvent := (s.smsRef, s.sentSms, s.sent, s.smsTrace)

abbrev SmsFrame : St → St → Prop := Frame (fun _ => True) smsPart

theorem sf_write {data term : PyStr} {pe : Bool} : Steps env SmsFrame (write data pe term) :=
  frame_write trivial fun _ _ _ => rfl

macro "sframe" : tactic => `(tactic| (steps frame_pre) <;> try first
  | exact sf_write
  | exact frame_same rfl rfl)

theorem sf_setAnswered (i : Nat) (v : Bool) : Steps env SmsFrame (setAnswered i v) := by
  unfold setAnswered callback; sframe
theorem sf_hangup (i : Nat) : Steps env SmsFrame (hangup i) := by
  have := sf_setAnswered (env := env) i false
  unfold hangup stopRinging hangupActive; sframe
theorem sf_answer (i : Nat) : Steps env SmsFrame (answer i) := by
  have := sf_setAnswered (env := env) i true
  unfold answer; sframe
theorem sf_ended (c : Option Int) (a b : Bool) : Steps env SmsFrame (handleCallEnded c a b) := by
  have := fun i => sf_setAnswered (env := env) i false
  unfold handleCallEnded; sframe <;> exact this _
theorem sf_mode (v : Bool) : Steps env SmsFrame (setSmsTextMode v) := by unfold setSmsTextMode; sframe
theorem sf_memory (m : Option PyStr) : Steps env SmsFrame (setSmsMemory m) := by unfold setSmsMemory; sframe

theorem sf_getSmsc : Steps env SmsFrame getSmsc := by unfold getSmsc; sframe
theorem sf_setSmsc (n : Option PyStr) : Steps env SmsFrame (setSmsc n) := by unfold setSmsc; sframe

/-- Only sending and reports change this part. -/
theorem atom_sms {a b : St} (h : Atom env a b) : smsPart b = smsPart a ∨
    (∃ d t r, b = (recordSent d t r env a).2) ∨ (∃ st r ds n t1 t2, b = (updateSent (.report st r n t1 t2 ds) r ds env a).2) := by
  cases h with
  | textMode v => exact .inl ((sf_mode v).run a).2
  | memory m => exact .inl ((sf_memory m).run a).2
  | getSmsc => exact .inl (sf_getSmsc.run a).2
  | setSmsc n => exact .inl ((sf_setSmsc n).run a).2
  | answered i k _ => exact .inl ((sf_setAnswered i true).run a).2
  | answeredFirst i _ => exact .inl ((sf_setAnswered i true).run a).2
  | ended c x y => exact .inl ((sf_ended c x y).run a).2
  | hangup i => exact .inl ((sf_hangup i).run a).2
  | answer i => exact .inl ((sf_answer i).run a).2
  | sent d t r => exact .inr (.inl ⟨d, t, r, rfl⟩)
  | report st r ds n t1 t2 => exact .inr (.inr ⟨st, r, ds, n, t1, t2, rfl⟩)
  | _ => exact .inl rfl

/-! ### C37 -/

theorem lastReference_snoc_sent (es : List SmsEvent) (r : Int) : lastReference (es ++ [.sent r]) = some r := by
  induction es with
  | nil => rfl
  | cons e es ih => cases e <;> simp [lastReference, ih]
theorem lastReference_snoc_report (es : List SmsEvent) (r d : Int) : lastReference (es ++ [.report r d]) = lastReference es := by
  induction es with
  | nil => rfl
  | cons e es ih => cases e <;> simp [lastReference, ih]

/-- The counter follows the last reference; a negative reference is just incremented. -/
def RefOk (s : St) : Prop :=
  match lastReference s.smsTrace.reverse with
  | none => s.smsRef = 0
  | some r => s.smsRef = if r < 0 then r + 1 else nextReference r

theorem refOk_atom (a b : St) (h : Atom env a b) (ha : RefOk a) : RefOk b := by
  rcases atom_sms h with h | ⟨d, t, r, rfl⟩ | ⟨st, r, ds, n, t1, t2, rfl⟩
  · simp only [smsPart, Prod.mk.injEq] at h
    unfold RefOk at *
    rw [h.1, h.2.2.2]; exact ha
  · unfold RefOk
    simp only [recordSent, run_modify, List.reverse_cons, lastReference_snoc_sent]
    unfold nextReference
    split <;> split <;> omega
  · unfold RefOk at *
    simp only [updateSent, run_modify, List.reverse_cons, lastReference_snoc_report]
    exact ha

/-- A new modem object. -/
def Fresh (s : St) : Prop := s.smsRef = 0 ∧ s.sentSms = [] ∧ s.sent = [] ∧ s.smsTrace = []

theorem sf_connect (pin : Option PyStr) : Steps env SmsFrame (connect pin) := by
  have h1 : Steps env SmsFrame (unlockSim pin) := by unfold unlockSim; sframe
  have h2 : ∀ b, Steps env SmsFrame (connectRest pin b) := by intro b; unfold connectRest; sframe
  have h3 : Steps env SmsFrame (connectBasics pin) := by unfold connectBasics; sframe <;> exact h2 _
  have h4 : Steps env SmsFrame supportedCommands := by unfold supportedCommands; sframe
  have h5 : ∀ cs, Steps env SmsFrame (identifyCommands cs) := by intro cs; unfold identifyCommands; sframe
  have h6 : ∀ h, Steps env SmsFrame (identifyWind h) := by intro cs; unfold identifyWind; sframe
  have h7 : ∀ h, Steps env SmsFrame (identifyOther h) := by intro cs; unfold identifyOther manufacturer; sframe
  have h8 : Steps env SmsFrame connectIdentify := by
    unfold connectIdentify; sframe <;> first | exact h5 _ | exact h6 _ | exact h7 _
  have h9 : ∀ h cs, Steps env SmsFrame (connectCallTable h cs) := by
    intro h cs
    unfold connectCallTable
    refine Steps.modify fun s => ?_
    repeat' split
    all_goals exact frame_same rfl rfl
  have h10 : Steps env SmsFrame getSmsc := by unfold getSmsc; sframe
  have h11 : ∀ n, Steps env SmsFrame (setSmsc n) := by intro n; unfold setSmsc; sframe
  have h12 : Steps env SmsFrame connectSms := by unfold connectSms; sframe <;> exact h11 _
  have h13 : Steps env SmsFrame connectMemory := by unfold connectMemory; sframe
  have h14 : Steps env SmsFrame connectNotifications := by unfold connectNotifications; sframe
  unfold connect; sframe
  exact h9 _ _

theorem fresh_connect (pin : Option PyStr) {s : St} (h : Fresh s) : Fresh (connect pin env s).2 := by
  have := ((sf_connect (env := env) pin).run s).2
  simp only [smsPart, Prod.mk.injEq] at this
  obtain ⟨h1, h2, h3, h4⟩ := this
  exact ⟨h1 ▸ h.1, h2 ▸ h.2.1, h3 ▸ h.2.2.1, h4 ▸ h.2.2.2⟩

theorem refOk_history [PyUnicode] {s : St} (h : Fresh s) (ops : List Op) : RefOk (runOps env ops s) :=
  runOps_inv refOk_atom ops (by simp [RefOk, h.2.2.2, h.1, lastReference])

/-- The next reference is zero, or follows the last reference that the modem returned. -/
theorem C37_follows [PyUnicode] {s : St} (h : Fresh s) (ops : List Op) :
    (lastReference (runOps env ops s).smsTrace.reverse = none → (runOps env ops s).smsRef = 0) ∧
    (∀ r, 0 ≤ r → lastReference (runOps env ops s).smsTrace.reverse = some r → (runOps env ops s).smsRef = nextReference r) := by
  have := refOk_history (env := env) h ops
  unfold RefOk at this
  refine ⟨fun hr => by rwa [hr] at this, fun r h0 hr => ?_⟩
  rw [hr] at this
  simpa [show ¬ r < 0 by omega] using this

/-- It is an octet as long as the modem returns no negative references. -/
theorem C37_octet [PyUnicode] {s : St} (h : Fresh s) (ops : List Op)
    (hn : ∀ r, lastReference (runOps env ops s).smsTrace.reverse = some r → 0 ≤ r) :
    0 ≤ (runOps env ops s).smsRef ∧ (runOps env ops s).smsRef ≤ 255 := by
  have h1 := C37_follows (env := env) h ops
  cases hr : lastReference (runOps env ops s).smsTrace.reverse with
  | none => rw [h1.1 hr]; omega
  | some r =>
    rw [h1.2 r (hn r hr) hr]
    unfold nextReference
    split <;> omega

/-! ### The encoder does not care about the reference -/

theorem userDataPart_header {alphabet : Nat} {t : PyStr} {udh udh' ud : List Nat} (hl : udh.length = udh'.length)
    (h : userDataPart alphabet t udh = .ok ud) : ∃ ud', userDataPart alphabet t udh' = .ok ud' := by
  unfold userDataPart at *
  rw [hl] at h
  by_cases ha : alphabet = 0
  · by_cases h0 : udh'.length > 0
    · simp only [ha, h0, if_true, except_bind_ok, pure, Except.pure, Except.ok.injEq] at h ⊢
      obtain ⟨a, h1, b, h2, c, h3, d, h4, e, h5, _⟩ := h
      exact ⟨_, a, h1, b, h2, c, h3, d, h4, e, h5, rfl⟩
    · simp only [ha, h0, if_true, if_false, except_bind_ok, pure, Except.pure, Except.ok.injEq] at h ⊢
      obtain ⟨a, h1, b, h2, c, h3, d, h4, _⟩ := h
      exact ⟨_, a, h1, b, h2, c, h3, d, h4, rfl⟩
  · by_cases h0 : udh'.length > 0
    · simp only [ha, h0, if_true, if_false, except_bind_ok, pure, Except.pure, Except.ok.injEq] at h ⊢
      obtain ⟨b, h2, c, h3, d, h4, e, h5, _⟩ := h
      exact ⟨_, b, h2, c, h3, d, h4, e, h5, rfl⟩
    · simp only [ha, h0, if_false, except_bind_ok, pure, Except.pure, Except.ok.injEq] at h ⊢
      obtain ⟨b, h2, c, h3, d, h4, _⟩ := h
      exact ⟨_, b, h2, c, h3, d, h4, rfl⟩

theorem forall₂_exists {α β γ : Type} {R : α → β → Prop} {S : α → γ → Prop} {l : List α} {ps : List β}
    (h : List.Forall₂ R l ps) (hRS : ∀ a b, R a b → ∃ c, S a c) : ∃ qs, List.Forall₂ S l qs := by
  induction h with
  | nil => exact ⟨[], .nil⟩
  | cons hab _ ih =>
    obtain ⟨c, hc⟩ := hRS _ _ hab
    obtain ⟨qs, hq⟩ := ih
    exact ⟨c :: qs, .cons hc hq⟩

/-- If a message can be encoded with some reference, it can be encoded with every octet. -/
theorem C37_encodable [PyUnicode] {number text : PyStr} {r r' : Int} {validity : Validity} {smsc : Option PyStr} {srr rd flash : Bool}
    {ps : List Pdu} (hr : 0 ≤ r ∧ r ≤ 255) (hr' : 0 ≤ r' ∧ r' ≤ 255)
    (h : encodeSmsSubmitPdu number text r validity smsc srr rd flash = .ok ps) :
    ∃ ps', encodeSmsSubmitPdu number text r' validity smsc srr rd flash = .ok ps' := by
  obtain ⟨vbits, vpi, alphabet, h1, h2, h3⟩ := encodeSmsSubmitPdu_ok_iff.1 h
  obtain ⟨qs, hq⟩ := forall₂_exists h3 (S := fun i p => submitPart number text r' smsc flash
        (foOf vbits rd srr (partsOf text alphabet).isSome) vpi alphabet (partsOf text alphabet) i = .ok p) (by
    intro i p hp
    obtain ⟨sca, mr, da, vp, udh, ptext, ud, k1, k2, k3, k4, k5, k6, _⟩ := submitPart_ok_iff.1 hp
    have hb : byteOf r' = .ok r'.toNat := by simp [byteOf, hr']; omega
    cases hparts : partsOf text alphabet with
    | none =>
      rw [hparts] at k2
      obtain ⟨rfl, rfl⟩ := k2
      exact ⟨_, submitPart_ok_iff.2 ⟨sca, _, da, vp, [], _, ud, k1, ⟨rfl, rfl⟩, hb, k4, k5, k6, rfl⟩⟩
    | some n =>
      rw [hparts] at k2
      obtain ⟨k2, k2'⟩ := k2
      unfold encodeConcatenation at k2
      rw [if_neg (by omega), bytesOf_ok_iff] at k2
      have hc : encodeConcatenation r' n (i + 1 : Nat) = .ok [0, 3, r'.toNat, n, i + 1] := by
        unfold encodeConcatenation
        rw [if_neg (by omega), bytesOf_ok_iff]
        refine ⟨?_, by simp⟩
        intro x hx
        by_cases hx' : x = r'
        · subst hx'; omega
        · exact k2.1 x (by simp only [List.mem_cons] at hx ⊢; rcases hx with h | h | h | h | h <;> simp_all)
      obtain ⟨ud', hud⟩ := userDataPart_header (udh' := [0, 3, r'.toNat, n, i + 1]) (by rw [k2.2]; rfl) k6
      exact ⟨_, submitPart_ok_iff.2 ⟨sca, _, da, vp, _, _, ud', k1, ⟨hc, k2'⟩, hb, k4, k5, hud, rfl⟩⟩)
  exact ⟨qs, encodeSmsSubmitPdu_ok_iff.2 ⟨vbits, vpi, alphabet, h1, h2, hq⟩⟩

/-- A modem that answers every message with this line. -/
def cmgsModem (line : PyStr) : Env := modemWith fun log =>
  if (log.head?.getD []).getLast? = some 26 then some (.lines [line, py!"OK"]) else none

attribute [local instance] asciiUnicode in
example : (runOps (cmgsModem py!"+CMGS: 255") [.send py!"12" py!"Hi" false] {}).smsRef = 0 ∧
    (runOps (cmgsModem py!"+CMGS: 12") [.send py!"12" py!"Hi" false] {}).smsRef = 13 := by decide +kernel

attribute [local instance] asciiUnicode in
/-- The reference is read from the eighth character on, so without a space its first digit is lost. -/
theorem C37_needs_space : (runOps (cmgsModem py!"+CMGS:12") [.send py!"12" py!"Hi" false] {}).smsTrace = [.sent 2] := by decide +kernel

attribute [local instance] asciiUnicode in
/-- A negative reference makes the next message impossible to send. -/
theorem C37_negative : (sendSms py!"12" py!"Hi" false (cmgsModem py!"+CMGS: -2") {}).1 = .ok 0 ∧
    (sendSms py!"12" py!"Hi" false (cmgsModem py!"+CMGS: -2") (sendSms py!"12" py!"Hi" false (cmgsModem py!"+CMGS: -2") {}).2).1 =
      .error .valueError := by decide +kernel

/-! ### C39 -/

/-- The last position of a reference. -/
def lastIdx (r : Int) : List Int → Option Nat
  | [] => none
  | x :: xs =>
    match lastIdx r xs with
    | some i => some (i + 1)
    | none => if x = r then some 0 else none

theorem lastIdx_snoc (r : Int) (xs : List Int) (y : Int) : lastIdx r (xs ++ [y]) = if y = r then some xs.length else lastIdx r xs := by
  induction xs with
  | nil => simp [lastIdx]
  | cons x xs ih =>
    rw [List.cons_append, lastIdx, ih]
    by_cases h : y = r
    · simp [h]
    · simp [h, lastIdx]

theorem dictGet_set {α : Type} (d : List (Int × α)) (k k' : Int) (v : α) : dictGet (dictSet d k v) k' = if k' = k then some v else dictGet d k' := by
  induction d with
  | nil => by_cases h : k' = k <;> simp [dictSet, dictGet, h, eq_comm]
  | cons p d ih =>
    obtain ⟨a, b⟩ := p
    simp only [dictGet] at ih
    unfold dictSet dictGet
    by_cases h : a = k
    · subst h
      by_cases h2 : k' = a <;> simp [h2, eq_comm]
    · by_cases h2 : a = k'
      · subst h2; simp [h]
      · simp [h, h2, ih]

theorem statusAfter_snoc_sent (r r' : Int) (st : Nat) (es : List SmsEvent) : statusAfter r st (es ++ [.sent r']) = statusAfter r st es := by
  induction es generalizing st with
  | nil => simp [statusAfter]
  | cons e es ih => cases e <;> simp [statusAfter, ih]

theorem sentMessages_snoc_sent (es : List SmsEvent) (r : Int) : sentMessages (es ++ [.sent r]) = sentMessages es ++ [(r, 0)] := by
  induction es with
  | nil => simp [sentMessages, statusAfter]
  | cons e es ih => cases e <;> simp [sentMessages, statusAfter_snoc_sent, ih]

theorem statusAfter_snoc_report (r r' d : Int) (st : Nat) (es : List SmsEvent) :
    statusAfter r st (es ++ [.report r' d]) =
      if r' = r ∧ lastIdx r ((sentMessages es).map (·.1)) = none then statusFor d else statusAfter r st es := by
  induction es generalizing st with
  | nil => simp [statusAfter, sentMessages, lastIdx]
  | cons e es ih =>
    cases e with
    | sent x =>
      simp only [List.cons_append, statusAfter, sentMessages, List.map_cons, lastIdx]
      by_cases hx : x = r
      · subst hx
        cases hl : lastIdx x ((sentMessages es).map (·.1)) <;> simp
      · rw [ih]
        cases hl : lastIdx r ((sentMessages es).map (·.1)) <;> simp [hx]
    | report x y =>
      rw [List.cons_append, statusAfter, ih]
      rfl

theorem sentMessages_snoc_report (es : List SmsEvent) (r d : Int) : sentMessages (es ++ [.report r d]) =
    match lastIdx r ((sentMessages es).map (·.1)) with
    | some i => (sentMessages es).modify i fun p => (p.1, statusFor d)
    | none => sentMessages es := by
  induction es with
  | nil => simp [sentMessages, lastIdx]
  | cons e es ih =>
    cases e with
    | sent x =>
      simp only [List.cons_append, sentMessages, statusAfter_snoc_report, ih, List.map_cons, lastIdx]
      cases hl : lastIdx r ((sentMessages es).map (·.1)) with
      | some i =>
        have : ¬ (r = x ∧ lastIdx x ((sentMessages es).map (·.1)) = none) := by
          rintro ⟨rfl, h⟩; rw [hl] at h; cases h
        simp [this]
      | none =>
        by_cases hx : x = r
        · subst hx; simp [hl]
        · simp [hx, Ne.symm hx, eq_comm]
    | report x y => simp only [List.cons_append, sentMessages, ih]

/-- The dictionary leads to the last message with a reference, and the messages are those of the abstract
history. -/
def SentOk (s : St) : Prop :=
  (∀ r, dictGet s.sentSms r = lastIdx r (s.sent.map (·.reference))) ∧
  s.sent.map (fun x => (x.reference, x.status)) = sentMessages s.smsTrace.reverse

theorem sentOk_atom (a b : St) (h : Atom env a b) (ha : SentOk a) : SentOk b := by
  rcases atom_sms h with h | ⟨d, t, r, rfl⟩ | ⟨st, r, ds, n, t1, t2, rfl⟩
  · simp only [smsPart, Prod.mk.injEq] at h
    unfold SentOk at *
    rw [h.2.1, h.2.2.1, h.2.2.2]; exact ha
  · obtain ⟨h1, h2⟩ := ha
    refine ⟨fun k => ?_, ?_⟩
    · simp only [recordSent, run_modify, dictGet_set, List.map_append, List.map_cons, List.map_nil, lastIdx_snoc, List.length_map, h1, eq_comm]
    · simp only [recordSent, run_modify, List.map_append, List.map_cons, List.map_nil, List.reverse_cons, sentMessages_snoc_sent, h2]
      rfl
  · obtain ⟨h1, h2⟩ := ha
    have hrefs : (sentMessages a.smsTrace.reverse).map (·.1) = a.sent.map (·.reference) := by
      rw [← h2, List.map_map]; rfl
    have hmod : ∀ i (l : List Sent), (l.modify i fun x => { x with report := some (.report st r n t1 t2 ds) }).map (·.reference) = l.map (·.reference) := by
      intro i l
      induction l generalizing i with
      | nil => simp
      | cons x l ih => cases i <;> simp [ih]
    have hmod2 : ∀ i (l : List Sent), (l.modify i fun x => { x with report := some (.report st r n t1 t2 ds) }).map (fun x => (x.reference, x.status)) =
        (l.map (fun x => (x.reference, x.status))).modify i fun p => (p.1, statusFor ds) := by
      intro i l
      induction l generalizing i with
      | nil => simp
      | cons x l ih =>
        cases i with
        | zero => simp [Sent.status, statusFor]
        | succ i => simp only [List.modify_succ_cons, List.map_cons, ih]
    simp only [SentOk, updateSent, run_modify, List.reverse_cons, sentMessages_snoc_report, hrefs]
    cases hd : dictGet a.sentSms r with
    | none =>
      rw [h1] at hd
      rw [hd]
      exact ⟨h1, h2⟩
    | some i =>
      have hd' := hd
      rw [h1] at hd'
      rw [hd']
      exact ⟨fun k => by rw [hmod]; exact h1 k, by rw [hmod2, h2]⟩

/-- After any history the references and states of the sent messages are those of the specification. -/
theorem C39_status [PyUnicode] {s : St} (h : Fresh s) (ops : List Op) :
    (runOps env ops s).sent.map (fun x => (x.reference, x.status)) = sentMessages (runOps env ops s).smsTrace.reverse :=
  (runOps_inv sentOk_atom ops ⟨by simp [h.2.1, h.2.2.1, dictGet, lastIdx], by simp [h.2.2.1, h.2.2.2, sentMessages]⟩).2

end Gsm
