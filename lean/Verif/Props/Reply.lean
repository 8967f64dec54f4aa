import Verif.Lemmas.Reply
import Verif.Props.Across
import Verif.Model.Examples
/-! # Property C121: an answer goes to whoever wrote the message -/
namespace Gsm
open M Spec

section
variable [PyUnicode] {env : Env} {n seen text : PyStr} {oa : List Nat} {s s' : St}

/-- The message as the two modes hand it over (C102). -/
def FromSender (n seen : PyStr) (textMode : Bool) (m : Msg) : Prop :=
  ∃ st t text smsc, m = .received st (some (if textMode then n else seen)) t text smsc

/-- C121, PDU mode. Every PDU of an answer is addressed to whoever wrote the message, exactly unless that is a name that looks like a number. -/
theorem C121_pdu {m : Msg} {pdus : List Pdu} {ms : List PyStr} (hs : Sender n oa seen) (hm : FromSender n seen false m) (hmode : s.smsTextMode = false)
    (he : encodeSmsSubmitPdu seen text s.smsRef = .ok pdus) (ht : TakenOver env.reply s.log ms) :
    (∃ k ≤ pdus.length, TakenOver env.reply (replySms m text env s).2.log (ms ++ (pdus.take k).map (fun p => pduHex p.data)) ∧
      ((∃ i, (replySms m text env s).1 = .ok i) → k = pdus.length)) ∧
    ∀ p ∈ pdus, ∃ f, SubmitRead p.data f ∧ (SameParty oa f.da ↔ (NameField oa → ¬ LooksLikeNumber seen)) := by
  obtain ⟨st, t, tx, smsc, rfl⟩ := hm
  refine ⟨C79_submitted hmode he ht, fun p hp => ?_⟩
  obtain ⟨F, ⟨e1, e2, e3, e4⟩, f1, f2, _, _, _, f3⟩ := C16_first_octet he p hp
  exact ⟨F, ⟨e1, f2, ⟨0, [], (Except.ok.inj e2).symm, rfl⟩, address_field_shape e3, by rw [e4, vpOctets, f3]; rfl⟩, answer_field hs e3⟩

/-- C121, text mode. The number in the command is the one that the modem has shown, -/
theorem C121_text {m : Msg} (hm : FromSender n seen true m) (hmode : s.smsTextMode = true) :
    SendSpec env [announcement n, text ++ [26]] n text s (replySms m text env s).2 (replySms m text env s).1 := by
  obtain ⟨st, t, tx, smsc, rfl⟩ := hm
  have := C38_text_mode (env := env) (destination := n) (text := text) (flash := false) hmode
  simpa [announcement, replySms] using this

omit [PyUnicode] in
/-- of which the modem makes the address of whoever wrote the message, exactly unless that is a name: a name is not dialled, or a number is dialled instead. -/
theorem C121_dialled (hs : Sender n oa seen) : (∃ da, DialledInText n da ∧ SameParty oa da) ↔ ¬ NameField oa := by
  cases hs with
  | @digits toa ds h1 h2 h3 h4 h5 =>
    refine ⟨fun _ => ?_, fun _ => ?_⟩
    · rintro ⟨_, _, _, e, h⟩
      simp only [List.cons.injEq] at e
      rw [← e.2.1] at h
      exact h2 h
    · by_cases h : toa / 16 % 8 = 1
      · exact ⟨_, ⟨ds, h3, h4, .inl ⟨by rw [if_pos h], rfl⟩⟩, .number h2 (by decide) (by simp [h]) h3 h4⟩
      · exact ⟨_, ⟨ds, h3, h4, .inr ⟨by rw [if_neg h], rfl⟩⟩, .number h2 (by decide) (by simp [h]) h3 h4⟩
  | name h1 h2 h3 h4 h5 h6 h7 =>
    refine ⟨?_, fun h => absurd ⟨_, _, _, rfl, h2⟩ h⟩
    rintro ⟨da, ⟨ds, g1, g2, g3⟩, hp⟩ -
    have : ∃ l toa' os, da = l :: toa' :: os ∧ toa' / 16 % 8 ≠ 5 := by
      rcases g3 with ⟨-, rfl⟩ | ⟨-, rfl⟩
      · exact ⟨_, _, _, rfl, by decide⟩
      · exact ⟨_, _, _, rfl, by decide⟩
    obtain ⟨l, toa', os, rfl, h8⟩ := this
    exact name_not_number h2 h8 hp

/-- A message without sender is not answered in PDU mode, nor is a status report; in text mode the answer is sent to `None`. -/
theorem C121_nobody {st : Int} {t : DateTime} {tx : PyStr} {smsc : Option PyStr} :
    replySms (.received st none t tx smsc) text env s = if s.smsTextMode then sendSms py!"None" text false env s else (.error .attributeError, s) := by
  simp only [replySms, run_bind, run_get]
  cases s.smsTextMode <;> rfl

/-- So an answer to a number gets there, with its text, in any combination of modes. -/
theorem C121_arrives {m : Msg} {code : PyStr} {i : Nat} {ms : List PyStr} (hs : Sender n oa seen) (hnum : ¬ NameField oa) (hm : FromSender n seen s.smsTextMode m)
    (hne : text ≠ []) (hread : Readable text code) (hlen : code.length ≤ 160) (href : 0 ≤ s.smsRef ∧ s.smsRef < 256)
    (hr : replySms m text env s = (.ok i, s')) (ht : TakenOver env.reply s.log ms) :
    ∃ x, TakenOver env.reply s'.log (ms ++ [x]) ∧ ArrivesEither s.smsTextMode x code text ∧
      (s.smsTextMode = false → ∀ octets, HexOf octets x → ∃ f, SubmitRead octets f ∧ SameParty oa f.da) := by
  have hn : seen = n ∧ ∃ ds, Phone n ds ∧ ds.length < 256 := by
    cases hs with
    | @digits toa ds h1 h2 h3 h4 h5 =>
      refine ⟨rfl, ds, ?_, h5⟩
      split
      · exact .intl h3 h4
      · exact .loc h3 h4
    | name h1 h2 => exact absurd ⟨_, _, _, rfl, h2⟩ hnum
  obtain ⟨rfl, ds, hp, hl⟩ := hn
  have hsend : replySms m text env s = sendSms seen text false env s := by
    obtain ⟨st, t, tx, smsc, rfl⟩ := hm
    simp [replySms]
  have hok : AddrOk false seen seen := .phone hp (by show ds.length ≤ 255; omega)
  cases hmode : s.smsTextMode with
  | true =>
    obtain ⟨x, h1, h2⟩ := C120_arrives hne hread hlen (fun _ => ⟨⟨_, hok⟩, href⟩) (hsend ▸ hr) ht
    rw [hmode] at h2
    exact ⟨x, h1, h2, fun h => by cases h⟩
  | false =>
    rw [hmode] at hm
    obtain ⟨r, hr'⟩ : ∃ r : Nat, s.smsRef = r := ⟨s.smsRef.toNat, by omega⟩
    obtain ⟨p, f, e1, e2, e3, e4⟩ := pdu_says (r := r) false hok (by omega) hne hread ((encodeGsm7_longer (readable_encode hread).1).trans hlen) (by omega)
    rw [← hr'] at e1
    obtain ⟨⟨k, _, h4, h5⟩, h6⟩ := C121_pdu (env := env) hs hm hmode e1 ht
    have := h5 ⟨i, by rw [hr]⟩
    subst this
    rw [hr] at h4
    have same : ∀ octets, HexOf octets (pduHex p.data) → octets = p.data := by
      intro octets h
      have h6 := unhex_of h
      rw [unhex_of (C22_str_pdu e2).1] at h6
      exact (Option.some.inj h6).symm
    refine ⟨pduHex p.data, by simpa using h4, arrives_either (textMode := false) fun octets h => ⟨f, ?_, e4⟩, fun _ octets h => ?_⟩
    · rw [same octets h]; exact e3
    · rw [same octets h]
      obtain ⟨f', g1, g2⟩ := h6 p (by simp)
      exact ⟨f', g1, g2.2 fun h => absurd h hnum⟩

/-- sms_handler_demo.py answers with `reply`. -/
theorem C121_demo {st : Int} {t : DateTime} {number tx : PyStr} {smsc : Option PyStr} :
    handleSms (.received st (some number) t tx smsc) = (do let _ ← replySms (.received st (some number) t tx smsc) (replyText tx)) := rfl

end

/-! ### Examples -/

/-- The name `123` in an address field. -/
theorem sender_123 : Sender py!"123" [6, 0xD0, 0x31, 0xD9, 0x0C] py!"123" :=
  .name (t := py!"123") (code := [49, 50, 51]) (by decide) (by decide) (by decide)
    ⟨.cons (code := [49]) (.inl ⟨49, by decide, by decide, rfl, by decide⟩) (.cons (code := [50]) (.inl ⟨50, by decide, by decide, rfl, by decide⟩)
      (.cons (code := [51]) (.inl ⟨51, by decide, by decide, rfl, by decide⟩) .nil)), by decide, by decide⟩
    ⟨by decide, 3, by decide, by decide⟩ (by decide) (by decide)

attribute [local instance] asciiUnicode in
/-- C121 is violated: the answer to a message from somebody who calls themself `123` is sent to the number 123. -/
theorem C121_violated : Sender py!"123" [6, 0xD0, 0x31, 0xD9, 0x0C] py!"123" ∧
    (replySms (.received 0 (some py!"123") hiTime py!"Hi" none) py!"Hi" senderModem {}).2.log =
      [pduHex [0, 0x21, 0, 3, 0xA1, 0x21, 0xF3, 0, 0, 2, 0xC8, 0x34] ++ [26], py!"AT+CMGS=11\r"] ∧
    ¬ SameParty [6, 0xD0, 0x31, 0xD9, 0x0C] [3, 0xA1, 0x21, 0xF3] :=
  ⟨sender_123, by decide +kernel, fun h => name_not_number (by decide) (by decide) h⟩

attribute [local instance] asciiUnicode in
/-- An answer to +2782. -/
example : Sender py!"+2782" [4, 0x91, 0x72, 0x28] py!"+2782" ∧
    (replySms (.received 0 (some py!"+2782") hiTime py!"Hi" none) py!"Hi" senderModem {}).2.log =
      [pduHex [0, 0x21, 0, 4, 0x91, 0x72, 0x28, 0, 0, 2, 0xC8, 0x34] ++ [26], py!"AT+CMGS=11\r"] ∧
    SameParty [4, 0x91, 0x72, 0x28] [4, 0x91, 0x72, 0x28] :=
  ⟨.digits (toa := 0x91) (ds := py!"2782") (by decide) (by decide) (by unfold IsDigits; decide) (by decide) (by decide), by decide +kernel,
    .number (ds := py!"2782") (by decide) (by decide) Iff.rfl (by unfold IsDigits; decide) (by decide)⟩

attribute [local instance] asciiUnicode in
example : (replySms (.received 0 none hiTime py!"Hi" none) py!"Hi" senderModem { smsTextMode := true }).2.log = [py!"Hi" ++ [26], py!"AT+CMGS=\"None\"\r"] := by decide +kernel

end Gsm
