import Verif.Props.ModemSend
import Verif.Lemmas.Numeral
/-! # Property C117: which answers of the modem count as sent -/
namespace Gsm
open M Spec

variable {env : Env}

/-- `int` reads exactly the whole numbers, with their value. -/
theorem C117_int {s : PyStr} {v : Int} : pyInt s = .ok v ↔ Numeral s v := by
  rw [← pyInt?_iff]
  unfold pyInt
  cases pyInt? s <;> simp

/-- It raises `ValueError` for everything else. -/
theorem C117_int_error {s : PyStr} {e : PyErr} : pyInt s = .error e ↔ e = .valueError ∧ ¬ ∃ v, Numeral s v := by
  constructor
  · intro h
    refine ⟨?_, ?_⟩
    · unfold pyInt at h
      cases hs : pyInt? s <;> simp [hs] at h
      exact h.symm
    · rintro ⟨v, hv⟩
      rw [C117_int.2 hv] at h; cases h
  · rintro ⟨rfl, h⟩
    cases hi : pyInt s with
    | ok v => exact absurd ⟨v, C117_int.1 hi⟩ h
    | error e =>
      unfold pyInt at hi
      cases hs : pyInt? s <;> simp [hs] at hi
      rw [hi]

example : Numeral py!" -1_234 " (-1234) := ⟨[32], [45], py!"1", [py!"234"], [32], by decide, by decide, by decide, by simp [Digits],
  by simp [Digits], .inr ⟨rfl, by decide⟩⟩
example : pyInt py!" -1_234 " = .ok (-1234) := by decide +kernel
example : (¬ ∃ v, Numeral py!"1__2" v) ∧ (¬ ∃ v, Numeral py!"12_" v) ∧ (¬ ∃ v, Numeral py!"1 2" v) ∧ (¬ ∃ v, Numeral py!"12x" v) :=
  ⟨((C117_int_error (e := .valueError)).1 (by decide +kernel)).2, ((C117_int_error (e := .valueError)).1 (by decide +kernel)).2, ((C117_int_error (e := .valueError)).1 (by decide +kernel)).2,
    ((C117_int_error (e := .valueError)).1 (by decide +kernel)).2⟩

/-- What `sendSms` has to write. -/
inductive ToWrite [PyUnicode] (destination text : PyStr) (flash : Bool) (s : St) : List PyStr → Prop
  | text : s.smsTextMode = true → ToWrite destination text flash s [py!"AT+CMGS=\"" ++ destination ++ py!"\"" ++ [13], text ++ [26]]
  | pdus {pdus : List Pdu} : s.smsTextMode = false → encodeSmsSubmitPdu destination text s.smsRef (sendFlash := flash) = .ok pdus →
      ToWrite destination text flash s (pdus.flatMap pduCommands)

/-- A message for which the modem has accepted everything is recorded as sent, with the number in its
answer, if there is a whole number from the eighth character of the `+CMGS:` line on; otherwise
`sendSms` raises an exception and remembers nothing of it. -/
theorem C117_send [PyUnicode] {destination text : PyStr} {flash : Bool} {s : St} {cs : List PyStr} (h : ToWrite destination text flash s cs) :
    ∃ ok, Transmission env.reply cs s.log (sendSms destination text flash env s).2.log ok ∧
      (ok = false → (∃ e, (sendSms destination text flash env s).1 = .error e) ∧ OnlyLog s (sendSms destination text flash env s).2) ∧
      (ok = true → ∀ l, cmgsLine (lastAnswer env (sendSms destination text flash env s).2.log) = some l →
        (∀ r, Numeral (l.drop 7) r → (sendSms destination text flash env s).1 = .ok s.sent.length ∧
          (sendSms destination text flash env s).2.sent = s.sent ++ [⟨destination, text, r, none⟩]) ∧
        ((¬ ∃ r, Numeral (l.drop 7) r) → (sendSms destination text flash env s).1 = .error .valueError ∧
          OnlyLog s (sendSms destination text flash env s).2)) := by
  have key : SendSpec env cs destination text s (sendSms destination text flash env s).2 (sendSms destination text flash env s).1 := by
    cases h with
    | text hm => exact C38_text_mode hm
    | pdus hm he => exact C38_pdu_mode hm he
  obtain ⟨ok, h1, h2, h3⟩ := key
  refine ⟨ok, h1, h2, fun hok l hl => ?_⟩
  obtain ⟨k1, k2⟩ := (h3 hok).2 l hl
  exact ⟨fun r hr => ⟨(k2 r (C117_int.2 hr)).1, (k2 r (C117_int.2 hr)).2.1⟩, fun hn => k1 _ (C117_int_error.2 ⟨rfl, hn⟩)⟩

/-- The number of an answer without details. -/
theorem plain_numeral {l : PyStr} {n : Nat} (h : CmgsAnswer l n none) : Numeral (l.drop 7) n := by
  cases h with
  | @plain ds hd =>
    have hx : (py!"+CMGS: " ++ ds).drop 7 = ds := rfl
    rw [hx]
    exact ⟨[], [], ds, [], [], by simp [DigitGroups], by simp, by simp, hd, by simp, .inl ⟨.inl rfl, by simp⟩⟩

theorem details_numeral {l t : PyStr} {n : Nat} (h : CmgsAnswer l n (some t)) : ¬ ∃ r, Numeral (l.drop 7) r := by
  cases h with
  | @details ds t hd =>
    rintro ⟨r, hr⟩
    have hx : (py!"+CMGS: " ++ ds ++ py!"," ++ t).drop 7 = ds ++ py!"," ++ t := by simp
    rw [hx] at hr
    exact numeral_chars hr 44 (by simp) rfl

/-- An answer `+CMGS: <mr>` gives the message the reference that the modem gave it. -/
theorem C117_plain [PyUnicode] {destination text : PyStr} {flash : Bool} {s : St} {cs : List PyStr} (h : ToWrite destination text flash s cs) :
    ∃ ok, Transmission env.reply cs s.log (sendSms destination text flash env s).2.log ok ∧
      (ok = true → ∀ l n, cmgsLine (lastAnswer env (sendSms destination text flash env s).2.log) = some l → CmgsAnswer l n none →
        (sendSms destination text flash env s).1 = .ok s.sent.length ∧
          (sendSms destination text flash env s).2.sent = s.sent ++ [⟨destination, text, n, none⟩]) := by
  obtain ⟨ok, h1, _, h3⟩ := C117_send (env := env) h
  exact ⟨ok, h1, fun hok l n hl hn => (h3 hok l hl).1 _ (plain_numeral hn)⟩

/-- With the time stamp or the acknowledgement of the message centre, which 27.005 allows, `sendSms`
always raises `ValueError` after the modem has taken the message, and a delivery report for it finds
no message. -/
theorem C117_details_violated [PyUnicode] {destination text : PyStr} {flash : Bool} {s : St} {cs : List PyStr} (h : ToWrite destination text flash s cs) :
    ∃ ok, Transmission env.reply cs s.log (sendSms destination text flash env s).2.log ok ∧
      (ok = true → ∀ l n t, cmgsLine (lastAnswer env (sendSms destination text flash env s).2.log) = some l → CmgsAnswer l n (some t) →
        (sendSms destination text flash env s).1 = .error .valueError ∧ (sendSms destination text flash env s).2.sent = s.sent ∧
          (sendSms destination text flash env s).2.sentSms = s.sentSms) := by
  obtain ⟨ok, h1, _, h3⟩ := C117_send (env := env) h
  refine ⟨ok, h1, fun hok l n t hl hn => ?_⟩
  obtain ⟨k1, lg, w, k2⟩ := (h3 hok l hl).2 (details_numeral hn)
  exact ⟨k1, by rw [k2], by rw [k2]⟩

/-- Neither does an answer without the blank after the colon count when the reference has one digit;
when it has more, the first is lost. -/
theorem C117_no_blank_violated {d : Nat} {ds : PyStr} (_ : 48 ≤ d ∧ d ≤ 57) (hds : Digits ds) :
    (¬ ∃ r, Numeral ((py!"+CMGS:" ++ [d]).drop 7) r) ∧ Numeral ((py!"+CMGS:" ++ d :: ds).drop 7) (decVal ds) := by
  refine ⟨fun ⟨_, hr⟩ => numeral_ne_nil hr, ?_⟩
  exact ⟨[], [], ds, [], [], by simp [DigitGroups], by simp, by simp, hds, by simp, .inl ⟨.inl rfl, by simp⟩⟩

attribute [local instance] asciiUnicode in
example : ToWrite py!"12" py!"Hi" false { smsTextMode := true } [py!"AT+CMGS=\"12\"\r", py!"Hi" ++ [26]] := .text rfl

attribute [local instance] asciiUnicode in
/-- Both kinds of answers in PDU mode and in text mode: the same is written, the outcome differs. -/
theorem C117_example :
    (∀ m ∈ [false, true], (sendSms py!"12" py!"Hi" false (cmgsModem py!"+CMGS: 5") { smsTextMode := m }).1 = .ok 0) ∧
    (∀ m ∈ [false, true], (sendSms py!"12" py!"Hi" false (cmgsModem py!"+CMGS: 5,\"26/11/16,21:00:00+04\"") { smsTextMode := m }).1 = .error .valueError) ∧
    (∀ m ∈ [false, true], (sendSms py!"12" py!"Hi" false (cmgsModem py!"+CMGS: 5,\"26/11/16,21:00:00+04\"") { smsTextMode := m }).2.log =
      (sendSms py!"12" py!"Hi" false (cmgsModem py!"+CMGS: 5") { smsTextMode := m }).2.log) := by decide +kernel

end Gsm
