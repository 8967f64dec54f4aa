import Verif.Spec.Examples
import Verif.Props.Relay
import Verif.Props.ModemDelivery
import Verif.Props.ModemCalls
import Verif.Props.ModemDtmf
/-! # Property C82: the example programs -/
namespace Gsm
open M Spec

theorem take_replyText (text : PyStr) : (replyText text).take 20 = py!"SMS received: \"" ++ (text.take 20 ++ (if text.length > 20 then py!"..." else []) ++ py!"\"").take 5 := by
  unfold replyText
  rw [List.append_assoc, List.append_assoc, List.take_append, List.append_assoc]
  rfl

theorem replyText_length (text : PyStr) : 16 ≤ (replyText text).length ∧ (replyText text).length ≤ 39 := by
  unfold replyText
  simp only [List.length_append, List.length_take]
  have h1 : (py!"SMS received: \"" : PyStr).length = 15 := rfl
  have h2 : (py!"..." : PyStr).length = 3 := rfl
  have h3 : (py!"\"" : PyStr).length = 1 := rfl
  split <;> simp only [h1, h2, h3, List.length_nil] <;> omega

/-- From the third answer on the text is the same. -/
theorem C82_settles (text : PyStr) : replyText (replyText (replyText text)) = echo ∧ replyText echo = echo := by
  refine ⟨?_, by decide +kernel⟩
  have h1 := replyText_length text
  have h2 : (replyText (replyText text)).length > 20 := by
    have : (replyText (replyText text)).length = 15 + (min 20 (replyText text).length) + (if (replyText text).length > 20 then 3 else 0) + 1 := by
      rw [show replyText (replyText text) = py!"SMS received: \"" ++ (replyText text).take 20 ++ (if (replyText text).length > 20 then py!"..." else []) ++ py!"\"" from rfl]
      simp only [List.length_append, List.length_take]
      split <;> rfl
    omega
  have h3 : (replyText (replyText text)).take 20 = py!"SMS received: \"SMS r" := by
    rw [take_replyText]
    have : ((replyText text).take 20 ++ (if (replyText text).length > 20 then py!"..." else []) ++ py!"\"").take 5 = py!"SMS r" := by
      rw [List.append_assoc, List.take_append_of_le_length (by rw [List.length_take]; omega), List.take_take]
      unfold replyText
      rw [List.append_assoc, List.append_assoc, List.take_append_of_le_length (by decide)]
      rfl
    rw [this]
    rfl
  rw [show replyText (replyText (replyText text)) = py!"SMS received: \"" ++ (replyText (replyText text)).take 20 ++ (if (replyText (replyText text)).length > 20 then py!"..." else []) ++ py!"\"" from rfl, if_pos h2, h3]
  rfl

theorem quotes_replyText {text : PyStr} (h : Quotes text) : Quotes (replyText text) := by
  have key : ∀ c ∈ replyText text, c < 65536 ∧ c ≠ 27 ∧ c ≠ 255 := by
    intro c hc
    unfold replyText at hc
    simp only [List.mem_append] at hc
    rcases hc with ((hc | hc) | hc) | hc
    · revert c; decide
    · exact h c hc
    · split at hc
      · revert c; decide
      · cases hc
    · revert c; decide
  exact fun c hc => key c (List.mem_of_mem_take hc)

theorem replyText_chars {text : PyStr} (h : Quotes text) : ∀ c ∈ replyText text, c < 65536 ∧ c ≠ 27 ∧ c ≠ 255 := by
  intro c hc
  unfold replyText at hc
  simp only [List.mem_append] at hc
  rcases hc with ((hc | hc) | hc) | hc
  · revert c; decide
  · exact h c hc
  · split at hc
    · revert c; decide
    · cases hc
  · revert c; decide

theorem septets_length {t os : List Nat} (h : encodeGsm7 t = .ok os) : os.length ≤ 2 * t.length := by
  induction t generalizing os with
  | nil => rw [encodeGsm7] at h; cases h; simp
  | cons c t ih =>
    obtain ⟨o, r, ho, hr, rfl⟩ := encodeGsm7_cons_ok h
    have := ih hr
    rcases encodeGsm7Char_ok ho with ⟨i, rfl, hi⟩ | ⟨v, rfl, hv⟩ | ⟨rfl, _⟩ <;> simp <;> omega

section
variable [PyUnicode]

/-- An answer to a message is one SMS, with the text that was meant. -/
theorem C82_one_message {env : Env} {number digits text : PyStr} {s s' : St} {ms : List PyStr} {status : Int} {time : DateTime} {smsc : Option PyStr} (hq : Quotes text) (hp : Phone number digits) (hd : digits.length ≤ 255)
    (hm : s.smsTextMode = false) (hr : 0 ≤ s.smsRef) (hr' : s.smsRef < 256) (hs : handleSms (.received status (some number) time text smsc) env s = (.ok (), s')) (ht : TakenOver env.reply s.log ms) :
    ∃ m, TakenOver env.reply s'.log (ms ++ [m]) ∧ Arrives m (replyText text) := by
  obtain ⟨r, hr1⟩ : ∃ r : Nat, s.smsRef = r := ⟨s.smsRef.toNat, by omega⟩
  have hr2 : r < 256 := by omega
  have ha : AddrOk false number number := .phone hp hd
  have hs1 : ∃ i, sendSms number (replyText text) false env s = (.ok i, s') := by
    simp only [handleSms, run_bind] at hs
    cases hx : sendSms number (replyText text) false env s with
    | mk r1 s1 =>
      rw [hx] at hs
      cases r1 with
      | error e => cases hs
      | ok i => cases hs; exact ⟨i, rfl⟩
  obtain ⟨i, hs1⟩ := hs1
  have hl := replyText_length text
  have hc := replyText_chars hq
  cases he : encodeGsm7 (replyText text) with
  | ok os =>
    have h1 := septets_length he
    obtain ⟨m, h2, h3⟩ := C79_short hm ha hr1 hr2 (fun h => by rw [h] at hl; simp at hl) (fun h => (hc 27 h).2.1 rfl) he (by omega) (by omega) hs1 ht
    refine ⟨m, h2, ?_⟩
    have e : trimAt (os.length % 8 = 0) (replyText text) = replyText text := by
      unfold trimAt
      rw [if_neg]
      rintro ⟨_, h⟩
      unfold replyText at h
      rw [List.getLast?_append] at h
      cases h
    rw [e] at h3
    exact @h3
  | error e =>
    have he' : e = .valueError := by
      obtain ⟨pre, c, post, h1, _, _, h4⟩ := C02_rejects he
      rw [h4, if_neg]
      exact fun h => (hc c (by rw [h1]; simp)).2.2 h
    subst he'
    exact C79_short_ucs2 hm ha hr1 hr2 he (fun c h => (hc c h).1) (by omega) hs1 ht

/-- It is addressed to the number that the message has come from. -/
theorem C82_addressed {env : Env} {number digits text : PyStr} {s s' : St} {ms : List PyStr} {status : Int} {time : DateTime} {smsc : Option PyStr} (hq : Quotes text) (hp : Phone number digits) (hd : digits.length ≤ 255)
    (hm : s.smsTextMode = false) (hr : 0 ≤ s.smsRef) (hr' : s.smsRef < 256) (hs : handleSms (.received status (some number) time text smsc) env s = (.ok (), s')) (ht : TakenOver env.reply s.log ms) :
    ∃ octets f, TakenOver env.reply s'.log (ms ++ [pduHex octets]) ∧ SubmitRead octets f ∧ AddrWire false (some number) f.da := by
  obtain ⟨m, h1, _⟩ := C82_one_message hq hp hd hm hr hr' hs ht
  cases he : encodeSmsSubmitPdu number (replyText text) s.smsRef with
  | error e =>
    simp only [handleSms, run_bind, sendSms, run_get, hm, Bool.false_eq_true, if_false, he, run_ofExcept] at hs
    cases hs
  | ok pdus =>
    obtain ⟨n, h2, h3, h4⟩ := C79_submitted (envA := env) hm he ht
    have hs1 : ∃ i, sendSms number (replyText text) false env s = (.ok i, s') := by
      simp only [handleSms, run_bind] at hs
      cases hx : sendSms number (replyText text) false env s with
      | mk r1 s1 =>
        rw [hx] at hs
        cases r1 with
        | error e => cases hs
        | ok i => cases hs; exact ⟨i, rfl⟩
    obtain ⟨i, hs1⟩ := hs1
    rw [hs1] at h3 h4
    have h5 := h4 ⟨i, rfl⟩
    subst h5
    rw [List.take_length] at h3
    have h6 : pdus.map (fun p => pduHex p.data) = [m] := List.append_cancel_left (taken_unique h3 h1)
    match pdus, h6 with
    | [p], h6 =>
      obtain ⟨f, h7, h8⟩ := C79_addressed hp he p (by simp)
      exact ⟨p.data, f, h3, h7, h8⟩

omit [PyUnicode] in
theorem encodeGsm7_y {pre post : List Nat} (h : ∀ x ∈ pre, Encodable x) : encodeGsm7 (pre ++ 255 :: post) = .error .typeError := by
  induction pre with
  | nil => rfl
  | cons x pre ih =>
    obtain ⟨os, ho⟩ := (C02_accepts_iff [x]).2 (by simpa using h x (by simp))
    obtain ⟨o, r, h1, _⟩ := encodeGsm7_cons_ok ho
    have h2 := ih fun y hy => h y (by simp [hy])
    rw [List.cons_append, encodeGsm7]
    simp only [h1, h2, bind, Except.bind]

/-- The letter ÿ among the first 20 characters, when the others before it belong to the GSM alphabet: the answer fails with an exception of the library's encoder, before anything is written (C02). -/
theorem C82_not_answered {env : Env} {number text pre post : PyStr} {s : St} {status : Int} {time : DateTime} {smsc : Option PyStr} (hm : s.smsTextMode = false)
    (ht : text.take 20 = pre ++ 255 :: post) (hp : ∀ x ∈ pre, Encodable x) : handleSms (.received status (some number) time text smsc) env s = (.error .typeError, s) := by
  have h1 : encodeGsm7 (replyText text) = .error .typeError := by
    obtain ⟨rest, hr⟩ : ∃ rest, replyText text = (py!"SMS received: \"" ++ pre) ++ 255 :: rest := by
      unfold replyText
      rw [ht]
      exact ⟨post ++ ((if text.length > 20 then py!"..." else []) ++ py!"\""), by simp only [List.append_assoc, List.cons_append]⟩
    rw [hr]
    refine encodeGsm7_y fun x hx => ?_
    rcases List.mem_append.1 hx with hx | hx
    · exact (C02_accepts_iff (py!"SMS received: \"")).1 ⟨_, rfl⟩ x hx
    · exact hp x hx
  have h2 : encodeSmsSubmitPdu number (replyText text) s.smsRef = .error .typeError := by
    simp only [encodeSmsSubmitPdu, validityPart, chooseAlphabet, h1, bind, Except.bind]
  simp only [handleSms, run_bind, sendSms, run_get, hm, Bool.false_eq_true, if_false, h2, run_ofExcept]

omit [PyUnicode] in
theorem taken_commands {reply : List PyStr → Reply} {cs old log ms : List PyStr} {ok : Bool} (ht : Transmission reply cs old log ok) (hc : ∀ c ∈ cs, beforeCtrlZ c = none) (h : TakenOver reply old ms) : TakenOver reply log ms := by
  obtain ⟨k, _, h1, _⟩ := taken_transmission ht h
  have : (cs.take k).filterMap beforeCtrlZ = [] := List.filterMap_eq_nil_iff.2 fun c h => hc c (List.mem_of_mem_take h)
  rwa [this, List.append_nil] at h1

/-- A message that arrives is answered by exactly one SMS, which arrives with the answer. -/
theorem C82_answered {m sender digits text : PyStr} {new : List PyStr} (ha : Arrives m text) (hq : Quotes text) (hp : Phone sender digits) (hd : digits.length ≤ 255) (hh : Handled m sender new) :
    ∃ m', new = [m'] ∧ Arrives m' (replyText text) := by
  obtain ⟨⟨octets, os, smsc, time, env, b, b', line, mem, idx, status, ms, h1, h2, h3, h4, h5, h6, h7, h8, h9, h10, h11⟩⟩ := hh
  obtain ⟨b1, h12, h13⟩ := ha h1 h2 h3 h4 h7 h8
  -- what the handling of the notification has done
  have heff := C71_message (env := env) line b
  rw [h12] at heff
  obtain ⟨mem', idx', msg, s2, hs2, ⟨s1, ⟨⟨l1, w1, k1, e1⟩, ht1, _⟩, ⟨l2, w2, k2, e2⟩, ht2⟩, hb1⟩ : ∃ mem' idx' msg s2, StoredAt py!"+CMTI:" line mem' idx' ∧ Fetched env b mem' idx' msg s2 ∧
      b1 = { s2 with callbacks := .smsReceived msg :: s2.callbacks } := by
    generalize hr : (Except.ok () : Except PyErr Unit) = r at heff
    cases heff with
    | other h => exact absurd h7 (h mem idx)
    | failed => cases hr
    | passed h hf => exact ⟨_, _, _, _, h, hf, rfl⟩
  have ht : TakenOver env.reply s2.log ms := by
    refine taken_commands ht2 ?_ (taken_commands ht1 ?_ h10)
    · intro c hc
      rw [List.mem_singleton.1 hc, show py!"AT+CMGD=" ++ idx' ++ py!",0\r" = (py!"AT+CMGD=" ++ idx' ++ py!",0") ++ [13] by simp]
      exact ctrlZ_cr
    · intro c hc
      rcases List.mem_append.1 hc with hc | hc
      · unfold chooseMemory at hc
        split at hc
        · cases hc
        · rw [List.mem_singleton.1 hc, show py!"AT+CPMS=\"" ++ mem' ++ py!"\"\r" = (py!"AT+CPMS=\"" ++ mem' ++ py!"\"") ++ [13] by simp]
          exact ctrlZ_cr
      · rw [List.mem_singleton.1 hc]
        exact ctrlZ_cr
  have hb2 : b1.smsTextMode = b.smsTextMode ∧ b1.smsRef = b.smsRef ∧ b1.log = s2.log := by
    rw [hb1]
    refine ⟨?_, ?_, rfl⟩ <;> dsimp only <;> rw [e2] <;> dsimp only <;> rw [e1]
  have hlen : b1.callbacks.take (b1.callbacks.length - b.callbacks.length) = [.smsReceived (.received (pduState status) (some sender) time text smsc)] := by
    rw [h13]
    simp
  have hrun : handleSms (.received (pduState status) (some sender) time text smsc) env b1 = (.ok (), b') := by
    simp only [smsDemo, run_bind, run_get, h12, hlen] at h9
    exact h9
  obtain ⟨m', h14, h15⟩ := C82_one_message hq hp hd (hb2.1.trans h4) (by rw [hb2.2.1]; exact h5) (by rw [hb2.2.1]; exact h6) hrun (by rw [hb2.2.2]; exact ht)
  have := taken_unique h11 h14
  exact ⟨m', List.append_cancel_left this, h15⟩

/-- Programs that answer each other never come to an end, whatever modems and service centres they have: after each answer that was sent there is another message to be answered; from the third on it has the same text. -/
theorem C82_correspondence {k : Nat} {m m' text : PyStr} (ha : Arrives m text) (hq : Quotes text) (h : Correspondence k m m') :
    Arrives m' (Nat.repeat replyText k text) ∧ Quotes (Nat.repeat replyText k text) ∧ (3 ≤ k → Nat.repeat replyText k text = echo) := by
  have hecho : ∀ k, 3 ≤ k → Nat.repeat replyText k text = echo := by
    intro k hk
    obtain ⟨j, rfl⟩ : ∃ j, k = j + 3 := ⟨k - 3, by omega⟩
    induction j with
    | zero => exact (C82_settles text).1
    | succ j ih =>
      show replyText (Nat.repeat replyText (j + 3) text) = echo
      rw [ih (by omega), (C82_settles text).2]
  refine ⟨?_, ?_, hecho k⟩
  · have both : Arrives m' (Nat.repeat replyText k text) ∧ Quotes (Nat.repeat replyText k text) := by
      induction h with
      | nothing => exact ⟨ha, hq⟩
      | more _ hp hd hh ih =>
        obtain ⟨m1, h1, h2⟩ := C82_answered (ih ha).1 (ih ha).2 hp hd hh
        cases h1
        exact ⟨h2, quotes_replyText (ih ha).2⟩
    exact @both.1
  · clear h
    induction k with
    | zero => exact hq
    | succ k ih => exact quotes_replyText ih

end

section
variable {env : Env} {s : St} {i : Nat} {c : CallObj} {during : List Event}

/-- The first time that a call rings, nothing is done. -/
theorem C82_first_ring (hc : s.calls[i]? = some c) (h1 : c.ringCount = 1) : incomingDemo i during env s = (.ok (), s) := by
  simp only [incomingDemo, run_bind, run_get, hc, h1, if_true]
  rfl

/-- Without support for tones the call is hung up when it rings again. -/
theorem C82_no_tones (hc : s.calls[i]? = some c) (h1 : 2 ≤ c.ringCount) (hs : s.dtmfSupport = false) : incomingDemo i during env s = hangup i env s := by
  simp only [incomingDemo, run_bind, run_get, hc, if_neg (show ¬ c.ringCount = 1 by omega), if_pos (show c.ringCount ≥ 2 by omega), hs, Bool.false_eq_true, if_false]

/-- With support for tones it is answered; when this is refused, nothing else is written. -/
theorem C82_not_taken (hc : s.calls[i]? = some c) (h1 : 2 ≤ c.ringCount) (hs : s.dtmfSupport = true) (hi : c.incoming = true) (hr : c.ringing = true) :
    ∃ ok, Transmission env.reply [py!"ATA\r"] s.log (answer i env s).2.log ok ∧ ((answer i env s).1 = .ok () ↔ ok = true) ∧
      (ok = false → (incomingDemo i during env s).2 = (answer i env s).2 ∧ ∃ e, (incomingDemo i during env s).1 = .error e) := by
  obtain ⟨ok, s1, e1, h2, h3, h4⟩ := C48_answer_command (env := env) hc hi hr
  subst e1
  refine ⟨ok, h2, ?_, fun h => ?_⟩
  · cases ok
    · obtain ⟨⟨e, h5⟩, _⟩ := h4 rfl
      rw [h5]
      simp
    · simp [(h3 rfl).1]
  · obtain ⟨⟨e, h5⟩, _⟩ := h4 h
    simp only [incomingDemo, run_bind, run_get, hc, if_neg (show ¬ c.ringCount = 1 by omega), if_pos (show c.ringCount ≥ 2 by omega), hs, if_true]
    rcases hx : answer i env s with ⟨r, s1⟩
    rw [hx] at h5
    cases h5
    exact ⟨rfl, e, rfl⟩

theorem demo_taken (hc : s.calls[i]? = some c) (h1 : 2 ≤ c.ringCount) (hs : s.dtmfSupport = true) {s1 s2 : St} (ha : answer i env s = (.ok (), s1)) (hw : sleep during env s1 = (.ok (), s2)) :
    incomingDemo i during env s = M.atLast (except (sendDtmfTone i py!"9515999955951") isInterrupted (fun _ => pure ())) (hangupAnswered i) env s2 := by
  simp only [incomingDemo, run_bind, run_get, hc, if_neg (show ¬ c.ringCount = 1 by omega), if_pos (show c.ringCount ≥ 2 by omega), hs, if_true, ha, hw]

/-- Waiting is never interrupted. -/
theorem sleep_ok (s1 : St) : ∃ s2, sleep during env s1 = (.ok (), s2) := by
  induction during generalizing s1 with
  | nil => exact ⟨s1, rfl⟩
  | cons e es ih =>
    have he : ∃ s2, e.run env s1 = (.ok (), s2) := by
      cases e with
      | notify ls => exact ⟨_, rfl⟩
      | poll k =>
        simp only [Event.run]
        split
        · exact ⟨_, rfl⟩
        · split <;> exact ⟨_, rfl⟩
    obtain ⟨s2, he⟩ := he
    simp only [sleep, run_bind, he]
    exact ih s2

/-- A call that has ended while the program waited: it fails, with an exception that it does not handle. -/
theorem C82_ended (hc : s.calls[i]? = some c) (h1 : 2 ≤ c.ringCount) (hs : s.dtmfSupport = true) {s1 s2 : St} {c2 : CallObj} (ha : answer i env s = (.ok (), s1)) (hw : sleep during env s1 = (.ok (), s2))
    (h2 : s2.calls[i]? = some c2) (h3 : c2.answered = false) : incomingDemo i during env s = (.error .invalidState, s2) := by
  rw [demo_taken hc h1 hs ha hw]
  simp only [M.atLast, except, C49_not_answered _ h2 h3, isInterrupted, hangupAnswered, run_bind, run_get, h2, h3, Bool.false_eq_true, if_false]
  rfl

/-- Otherwise the tones are sent and, whatever has become of them, the call is hung up; when this is accepted, it is over. -/
theorem C82_hangs_up (hc : s.calls[i]? = some c) (h1 : 2 ≤ c.ringCount) (hs : s.dtmfSupport = true) {s1 s2 : St} {c2 : CallObj} (ha : answer i env s = (.ok (), s1)) (hw : sleep during env s1 = (.ok (), s2))
    (h2 : s2.calls[i]? = some c2) (h3 : c2.answered = true) (h4 : c2.active = true) :
    ∃ tones hung log, Transmission env.reply [dtmfText (dtmfPart s2.dtmfHuawei c2.id) py!"9515999955951" ++ [13]] s2.log log tones ∧
      Transmission env.reply [py!"ATH\r"] log (incomingDemo i during env s).2.log hung ∧
      (hung = true → ∃ d, (incomingDemo i during env s).2.calls[i]? = some d ∧ d.active = false ∧ d.answered = false) ∧
      ((incomingDemo i during env s).1 = .ok () → hung = true) ∧ (tones = true → hung = true → (incomingDemo i during env s).1 = .ok ()) := by
  rw [demo_taken hc h1 hs ha hw]
  obtain ⟨tones, s3, e3, ⟨l, w, h5⟩, h6, h7⟩ := C49_command (env := env) (tones := py!"9515999955951") h2 h3 (by decide) (by unfold Plain; decide)
  have h8 : s3.calls[i]? = some c2 := by rw [h5]; exact h2
  obtain ⟨hung, s4, e4, h9, h10, h11⟩ := C48_hangup_command (env := env) h8 h4
  rcases hx : sendDtmfTone i py!"9515999955951" env s2 with ⟨r, s3'⟩
  rw [hx] at e3 h7
  dsimp only at e3 h7
  subst e3
  have key : ∃ r', except (sendDtmfTone i py!"9515999955951") isInterrupted (fun _ => pure ()) env s2 = (r', s3') ∧ (tones = true → r' = .ok ()) := by
    simp only [except, hx]
    cases r with
    | ok _ => exact ⟨_, rfl, fun _ => rfl⟩
    | error e =>
      have ht : tones = false := by
        cases tones
        · rfl
        · exact nomatch h7.2 rfl
      dsimp only
      split
      · exact ⟨_, rfl, (fun h => nomatch ht.symm.trans h)⟩
      · exact ⟨_, rfl, (fun h => nomatch ht.symm.trans h)⟩
  obtain ⟨r', hr', hok⟩ := key
  rcases hy : hangup i env s3' with ⟨q, s5⟩
  rw [hy] at e4 h10 h11
  dsimp only at e4 h10 h11
  subst e4
  simp only [M.atLast, hr', hangupAnswered, run_bind, run_get, h8, h3, if_true, hy]
  cases hung
  · obtain ⟨⟨e, he⟩, _⟩ := h11 rfl
    subst he
    exact ⟨tones, false, _, h6, h9, (fun h => nomatch h), (fun h => nomatch h), (fun _ h => nomatch h)⟩
  · obtain ⟨he, d, hd⟩ := h10 rfl
    subst he
    exact ⟨tones, true, _, h6, h9, fun _ => ⟨d, hd⟩, fun _ => rfl, fun h _ => hok h⟩

/-- A call that is marked as answered although it is over (C48): the tones are sent into it, and nothing else. -/
theorem C82_tones_into_nothing (hc : s.calls[i]? = some c) (h1 : 2 ≤ c.ringCount) (hs : s.dtmfSupport = true) {s1 s2 : St} {c2 : CallObj} (ha : answer i env s = (.ok (), s1)) (hw : sleep during env s1 = (.ok (), s2))
    (h2 : s2.calls[i]? = some c2) (h3 : c2.answered = true) (h4 : c2.active = false) :
    ∃ tones, Transmission env.reply [dtmfText (dtmfPart s2.dtmfHuawei c2.id) py!"9515999955951" ++ [13]] s2.log (incomingDemo i during env s).2.log tones := by
  rw [demo_taken hc h1 hs ha hw]
  obtain ⟨tones, s3, e3, ⟨l, w, h5⟩, h6, h7⟩ := C49_command (env := env) (tones := py!"9515999955951") h2 h3 (by decide) (by unfold Plain; decide)
  have h8 : s3.calls[i]? = some c2 := by rw [h5]; exact h2
  rcases hx : sendDtmfTone i py!"9515999955951" env s2 with ⟨r, s3'⟩
  rw [hx] at e3
  dsimp only at e3
  subst e3
  have key : ∃ r', except (sendDtmfTone i py!"9515999955951") isInterrupted (fun _ => pure ()) env s2 = (r', s3') := by
    simp only [except, hx]
    cases r with
    | ok _ => exact ⟨_, rfl⟩
    | error e =>
      dsimp only
      split <;> exact ⟨_, rfl⟩
  obtain ⟨r', hr'⟩ := key
  refine ⟨tones, ?_⟩
  simp only [M.atLast, hr', hangupAnswered, run_bind, run_get, h8, h3, if_true, hangup_inactive h8 h4]
  exact h6

end

/-! ### Examples -/

/-- A modem that has "Hi" (`hiDeliver`) and takes messages. -/
def answeringModem : Env := { receiverModem with reply := fun log => match log with | c :: _ => if c.getLast? = some 26 ∨ c.take 8 = py!"AT+CMGS=" then senderModem.reply log else receiverModem.reply log | [] => .timeout none }

/-- The answer. -/
def hiAnswer : PyStr := py!"00210004917228000012D3E614242F8FCB697B99AC0389906911"

attribute [local instance] asciiUnicode in
theorem answeringModem_run : smsDemo py!"+CMTI: \"SM\",3" answeringModem {} = (.ok (), { smsRef := 8, smsMemReadDelete := some py!"SM", sent := [⟨py!"+2782", py!"SMS received: \"Hi\"", 7, none⟩], sentSms := [(7, 0)], smsTrace := [.sent 7], callbacks := [.smsReceived (.received 0 (some py!"+2782") hiTime py!"Hi" (some py!"+2799"))], log := [hiAnswer ++ [26], py!"AT+CMGS=25\r", py!"AT+CMGD=3,0\r", py!"AT+CMGR=3\r", py!"AT+CPMS=\"SM\"\r"] }) := by decide +kernel

theorem hi_relayed : Relayed hiSubmit (some py!"+2799") (some py!"+2782") hiTime hiDeliver :=
  .mk (f := ⟨[0], 0x21, 0, [4, 0x91, 0x72, 0x38], 0, 0, [], 2, [0xC8, 0x34]⟩) (sca := [3, 0x91, 0x72, 0x99]) (fo := 4) (oa := [4, 0x91, 0x72, 0x28])
    (scts := [0x62, 0x11, 0x61, 0x90, 0x00, 0x00, 0x80])
    ⟨rfl, rfl, ⟨_, _, rfl, rfl⟩, ⟨_, _, _, rfl, rfl⟩, rfl⟩
    (.digits (toa := 0x91) (ds := py!"2799") (by decide) (by decide) (by decide) (by decide) (by decide))
    (.digits (toa := 0x91) (ds := py!"2782") (by decide) (by decide) (by decide) (by decide) (by decide))
    (.mk (neg := false) (q := 8) (by decide) (by decide) (by decide) rfl (by decide) (by decide)) (by decide) (by decide) (by decide)

theorem hi_taken : TakenOver answeringModem.reply [hiAnswer ++ [26], py!"AT+CMGS=25\r", py!"AT+CMGD=3,0\r", py!"AT+CMGR=3\r", py!"AT+CPMS=\"SM\"\r"] [hiAnswer] := by
  have no : ∀ {c : PyStr}, c.getLast? ≠ some 26 → ∀ {log}, ¬ (Accepted answeringModem.reply (c :: log) ∧ ∃ m, c = m ++ [26]) := by
    rintro c h log ⟨_, m, rfl⟩
    simp at h
  exact .taken (ms := []) ⟨_, py!"OK", rfl, rfl, by decide, by decide⟩ (.other (no (by decide)) (.other (no (by decide)) (.other (no (by decide)) (.other (no (by decide)) .nothing))))

attribute [local instance] asciiUnicode in
example : Handled (pduHex hiSubmit) py!"+2782" [hiAnswer] :=
  ⟨⟨hiSubmit, hiDeliver, _, hiTime, answeringModem, {}, _, _, py!"SM", py!"3", py!"0", [], (C22_str_pdu (by decide)).1, hi_relayed, by decide, rfl, by decide, by decide,
    ⟨[32], [], rfl, (by simp [Spaces]), (by unfold Quotable; decide), (by unfold Digits; decide), .inl rfl⟩,
    ⟨fun _ => ⟨_, py!"OK", rfl, rfl, by decide, by decide⟩,
      ⟨_, _, [], rfl, ⟨[], [], [], py!"17", [], rfl, by decide, .inl rfl, .inl rfl, by decide, by simp [Digits], .inl rfl⟩, (C22_str_pdu (by decide)).1⟩,
      ⟨_, py!"OK", rfl, rfl, by decide, by decide⟩⟩,
    answeringModem_run, .nothing, hi_taken⟩⟩

example : Quotes py!"Hi" ∧ replyText py!"Hi" = py!"SMS received: \"Hi\"" ∧ replyText py!"123456789012345678901" = py!"SMS received: \"12345678901234567890...\"" := by
  refine ⟨by unfold Quotes; decide, by decide +kernel, by decide +kernel⟩
example : ¬ Quotes py!"\xff" ∧ (py!"\xff" : PyStr).take 20 = [] ++ 255 :: [] := by
  refine ⟨by unfold Quotes; decide, rfl⟩

/-- An incoming call that has rung twice. -/
def rungTwice : CallObj := { incoming := true, id := 1, type := none, number := none, ringing := true, ringCount := 2 }

/-- A modem that accepts everything. -/
def willing : Env := { receiverModem with reply := fun _ => .lines [py!"OK"] }

example : (incomingDemo 0 [] willing { calls := [rungTwice], activeCalls := [(1, 0)], dtmfSupport := true }).2.log.reverse =
    [py!"ATA\r", dtmfText py!"+VTS=" py!"9515999955951" ++ [13], py!"ATH\r"] := by decide +kernel
example : incomingDemo 0 [] willing { calls := [{ rungTwice with ringCount := 1 }], activeCalls := [(1, 0)], dtmfSupport := true } =
    (.ok (), { calls := [{ rungTwice with ringCount := 1 }], activeCalls := [(1, 0)], dtmfSupport := true }) := by decide +kernel
example : (incomingDemo 0 [] willing { calls := [rungTwice], activeCalls := [(1, 0)] }).2.log = [py!"ATH\r"] := by decide +kernel
-- the caller hangs up two seconds after the call was answered
example : (incomingDemo 0 [.notify [py!"^CEND:1,2,104,16"]] willing { calls := [rungTwice], activeCalls := [(1, 0)], dtmfSupport := true, alive := true, callStatusUpdates := .huawei }).1 = .error .invalidState := by decide +kernel

end Gsm
