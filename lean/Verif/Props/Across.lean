import Verif.Lemmas.Across
import Verif.Lemmas.Sendable
import Verif.Props.Relay
import Verif.Props.Stranger
/-! # Property C120: a text arrives whichever modes the two modems are in -/
namespace Gsm
open M Spec

theorem encodeGsm7_longer : ∀ {t os : List Nat}, encodeGsm7 t = .ok os → t.length ≤ os.length
  | [], _, _ => by simp
  | c :: t, os, h => by
    obtain ⟨o, r, ho, hr, rfl⟩ := encodeGsm7_cons_ok h
    have h1 := encodeGsm7_longer hr
    have h2 : o ≠ [] := encodeGsm7_ne_nil (t := [c]) (by simp [encodeGsm7, ho]; rfl) (by simp)
    have := List.length_pos_of_ne_nil h2
    simp only [List.length_cons, List.length_append]
    omega

section
variable [PyUnicode] {envA : Env} {destination text code : PyStr} {flash : Bool} {s s' : St} {i : Nat} {ms : List PyStr}

/-- In text mode the modem takes over the text itself, once however often it was busy, and only if `sendSms` gets so far. -/
theorem C120_taken (hm : s.smsTextMode = true) (ht : TakenOver envA.reply s.log ms) :
    TakenOver envA.reply (sendSms destination text flash envA s).2.log ms ∧ (∀ j, (sendSms destination text flash envA s).1 ≠ .ok j) ∨
    TakenOver envA.reply (sendSms destination text flash envA s).2.log (ms ++ [text]) := by
  obtain ⟨ok, h1, h2, _⟩ := C38_text_mode (env := envA) (destination := destination) (text := text) (flash := flash) hm
  obtain ⟨k, hk, h4, h5⟩ := taken_transmission h1 ht
  have e2 : ([py!"AT+CMGS=\"" ++ destination ++ py!"\"" ++ [13], text ++ [26]] : List PyStr).filterMap beforeCtrlZ = [text] := by
    simp only [List.filterMap_cons, ctrlZ_cr, ctrlZ_some, List.filterMap_nil]
  have e1 : ([py!"AT+CMGS=\"" ++ destination ++ py!"\"" ++ [13]] : List PyStr).filterMap beforeCtrlZ = [] := by
    simp only [List.filterMap_cons, ctrlZ_cr, List.filterMap_nil]
  match k, hk, h4, h5 with
  | 0, _, h4, h5 =>
    refine .inl ⟨by simpa using h4, fun j hj => ?_⟩
    cases ok with
    | true => exact absurd (h5 rfl) (by simp)
    | false => obtain ⟨⟨e, he⟩, -⟩ := h2 rfl; rw [hj] at he; cases he
  | 1, _, h4, h5 =>
    refine .inl ⟨?_, fun j hj => ?_⟩
    · rw [List.take_succ_cons, List.take_zero, e1] at h4
      simpa using h4
    · cases ok with
      | true => exact absurd (h5 rfl) (by simp)
      | false => obtain ⟨⟨e, he⟩, -⟩ := h2 rfl; rw [hj] at he; cases he
  | 2, _, h4, _ =>
    rw [List.take_succ_cons, List.take_succ_cons, List.take_zero, e2] at h4
    exact .inr h4

/-- C120. A text in the GSM alphabet that fits into one message is sent as one message, and whichever mode the modem that sends it is in, a program that
receives it with its modem in text mode gets the lines of it, and a program with its modem in PDU mode all of it, except for one `@` at the end of a text that
fills its last octet. -/
theorem C120_arrives (hne : text ≠ []) (hread : Readable text code) (hlen : code.length ≤ 160) (hd : s.smsTextMode = false → (∃ d, AddrOk false destination d) ∧ 0 ≤ s.smsRef ∧ s.smsRef < 256)
    (hs : sendSms destination text flash envA s = (.ok i, s')) (ht : TakenOver envA.reply s.log ms) :
    ∃ m, TakenOver envA.reply s'.log (ms ++ [m]) ∧ ArrivesEither s.smsTextMode m code text := by
  cases hm : s.smsTextMode with
  | true =>
    refine ⟨text, ?_, arrives_either (textMode := true) fun octets h => made_says hne hread h⟩
    have := C120_taken (destination := destination) (text := text) (flash := flash) hm ht
    rw [hs] at this
    rcases this with ⟨-, h⟩ | h
    · exact absurd rfl (h i)
    · exact h
  | false =>
    obtain ⟨⟨d, hd1⟩, h0, h1⟩ := hd hm
    obtain ⟨r, hr⟩ : ∃ r : Nat, s.smsRef = r := ⟨s.smsRef.toNat, by omega⟩
    obtain ⟨p, f, e1, e2, e3, e4⟩ := pdu_says (r := r) flash hd1 (by omega) hne hread ((encodeGsm7_longer (readable_encode hread).1).trans hlen) (by omega)
    rw [← hr] at e1
    obtain ⟨n, _, h4, h5⟩ := C79_submitted (envA := envA) hm e1 ht
    have := h5 ⟨i, by rw [hs]⟩
    subst this
    rw [hs] at h4
    refine ⟨pduHex p.data, by simpa using h4, arrives_either (textMode := false) fun octets h => ⟨f, ?_, e4⟩⟩
    have h6 := unhex_of (show HexOf octets (pduHex p.data) from h)
    rw [unhex_of (C22_str_pdu e2).1] at h6
    rw [← Option.some.inj h6]
    exact e3

/-- In text mode the line cannot be misunderstood: no text in the GSM alphabet has the characters that end or abandon a message. -/
theorem C120_line {asks : List PyStr → Bool} (hp : Prompts envA.reply asks) (hb : NotBusyThen envA.reply asks) (hd : 0 < envA.depth) (h0 : asks s.log = false)
    (hm : s.smsTextMode = true) (hn : Flat destination) (hacc : Accepted envA.reply (announcement destination :: s.log)) (hread : Readable text code) :
    TakenAsMeant asks s.log (sendSms destination text flash envA s).2.log :=
  (C91_text hp hb destination text flash s hd h0 hm hn hacc).2 (readable_endless hread)

end

/-- In text mode a modem can make a message of a text exactly if the text is in the GSM alphabet and has at most 160 septets; `sendSms` neither divides a longer
text there (`C120_taken`) nor refuses it. -/
theorem C120_sendable (text : PyStr) : (∃ octets, MadeOf text octets) ↔ ∃ code, Readable text code ∧ code.length ≤ 160 := by
  refine ⟨fun ⟨octets, f, code, h⟩ => ⟨code, h.2.2.2.2.2.1, h.2.2.2.2.2.2.2.2⟩, fun ⟨code, hr, hl⟩ => ?_⟩
  obtain ⟨ud, hud⟩ : ∃ ud, Packed 0 code ud := by
    by_cases hc : code = []
    · subst hc; exact ⟨[], by simp, 0, by decide, rfl⟩
    · obtain ⟨out, -, q2, q3, -⟩ := C03_pack_stream (p := 0) (by omega) (fun _ => hc) (readable_lt hr)
      exact ⟨out, q2, by simpa [fillBits] using q3⟩
  exact ⟨_, ⟨[0], 49, 0, [0, 0x91], 0, 0, [167], code.length, ud⟩, code, ⟨rfl, (by show 49 % 4 = 1; decide), ⟨0, [], rfl, rfl⟩, ⟨0, 0x91, [], rfl, rfl⟩, (by show 1 = vpOctets 49; decide)⟩, rfl, rfl, rfl, rfl, hr, hud, rfl, hl⟩

/-- The text got is the one sent exactly if the text has no CR LF, for a program in text mode, and for one in PDU mode exactly if it does not end with an `@` that
fills the last octet. The mode of the sender does not matter. -/
theorem C120_exact {text code : PyStr} (textMode : Bool) :
    textGot textMode code text = text ↔ if textMode then NoEol text else ¬ (code.length % 8 = 0 ∧ text.getLast? = some 64) := by
  cases textMode with
  | true =>
    simp only [textGot, if_true]
    rw [← pyJoin_eq]
    exact C99_text_exact text
  | false =>
    simp only [textGot, Bool.false_eq_true, if_false]
    unfold trimAt
    split
    · next h =>
      refine ⟨fun e => absurd (congrArg List.length e) ?_, fun h' => absurd h h'⟩
      have : text ≠ [] := by rintro rfl; simp at h
      have := List.length_pos_of_ne_nil this
      simp only [List.length_dropLast]
      omega
    · next h => exact ⟨fun _ => h, fun _ => rfl⟩

/-- Programs in different modes get the same text exactly if both get the text sent. -/
theorem C120_alike {text code : PyStr} : textGot true code text = textGot false code text ↔ ∀ textMode, textGot textMode code text = text := by
  refine ⟨fun h => ?_, fun h => (h true).trans (h false).symm⟩
  simp only [textGot, if_true, Bool.false_eq_true, if_false] at h
  rw [← pyJoin_eq] at h
  have hc : (trimAt (code.length % 8 = 0) text).count 64 = text.count 64 := by
    rw [← h]
    exact count_lines text
  have h2 := trim_count hc
  rintro (_ | _)
  · simpa [textGot] using h2
  · simp only [textGot, if_true]
    rw [← pyJoin_eq, h, h2]

/-! ### Examples -/

/-- C120 is violated by texts of several lines: a program in text mode gets `a\nb` of `a\r\nb`. -/
theorem C120_lines_violated : Readable py!"a\r\nb" [97, 13, 10, 98] ∧ textGot true [97, 13, 10, 98] py!"a\r\nb" = py!"a\nb" ∧
    textGot false [97, 13, 10, 98] py!"a\r\nb" = py!"a\r\nb" := by
  refine ⟨⟨?_, by decide, by decide⟩, by decide +kernel, by decide +kernel⟩
  exact .cons (code := [97]) (.inl ⟨97, by decide, by decide, rfl, by decide⟩) (.cons (code := [13]) (.inl ⟨13, by decide, by decide, rfl, by decide⟩)
    (.cons (code := [10]) (.inl ⟨10, by decide, by decide, rfl, by decide⟩) (.cons (code := [98]) (.inl ⟨98, by decide, by decide, rfl, by decide⟩) .nil)))

/-- and by texts that end with `@`: a program in PDU mode gets `aaaaaaa` of `aaaaaaa@`. -/
theorem C120_at_violated : Readable py!"aaaaaaa@" [97, 97, 97, 97, 97, 97, 97, 0] ∧ textGot false [97, 97, 97, 97, 97, 97, 97, 0] py!"aaaaaaa@" = py!"aaaaaaa" ∧
    textGot true [97, 97, 97, 97, 97, 97, 97, 0] py!"aaaaaaa@" = py!"aaaaaaa@" := by
  refine ⟨⟨?_, by decide, by decide⟩, by decide +kernel, by decide +kernel⟩
  have a : ∀ {t code}, ReadsText t code → ReadsText (97 :: t) ([97] ++ code) := fun h => .cons (.inl ⟨97, by decide, by decide, rfl, by decide⟩) h
  exact a (a (a (a (a (a (a (.cons (code := [0]) (.inl ⟨0, by decide, by decide, rfl, by decide⟩) .nil)))))))

/-- What the modem makes of "hi" to +2783 in text mode. -/
def hiMade : List Nat := [0, 49, 7, 4, 0x91, 0x72, 0x38, 0, 0, 167, 2, 0xE8, 0x34]

theorem hi_readable : Readable py!"hi" [0x68, 0x69] :=
  ⟨.cons (code := [0x68]) (.inl ⟨0x68, by decide, by decide, rfl, by decide⟩)
      (.cons (code := [0x69]) (.inl ⟨0x69, by decide, by decide, rfl, by decide⟩) .nil), by decide, by decide⟩

def hiMadeFields : SubmitFields := ⟨[0], 49, 7, [4, 0x91, 0x72, 0x38], 0, 0, [167], 2, [0xE8, 0x34]⟩

theorem hiMade_read : SubmitRead hiMade hiMadeFields := ⟨rfl, rfl, ⟨_, _, rfl, rfl⟩, ⟨_, _, _, rfl, rfl⟩, rfl⟩

example : MadeOf py!"hi" hiMade := ⟨hiMadeFields, [0x68, 0x69], hiMade_read, rfl, rfl, rfl, rfl, hi_readable, ⟨by decide, 2, by decide, by decide⟩, rfl, by decide⟩

example : Passed hiMade african africanOctets :=
  ⟨hiMadeFields, _, _, _, _, hiMade_read, rfl, .absent, indian_sender,
    ⟨.mk (neg := false) (q := 8) (by decide) (by decide) (by decide) rfl (by decide) (by decide), by decide⟩, indian_body, by decide, by decide, by decide⟩

/-- A modem that has the message, in either mode. -/
def holdingModem (textMode : Bool) : Env := modemWith fun log =>
  if log.head? = some py!"AT+CMGR=3\r" then some (.lines (if textMode then textAnswer false african else pduAnswer 0 18 (pduHex africanOctets)))
  else some (.lines [py!"OK"])

example (textMode : Bool) : Holds (holdingModem textMode).reply { smsTextMode := textMode } py!"SM" py!"3" false african africanOctets :=
  ⟨fun _ => ⟨_, py!"OK", rfl, rfl, by decide, by decide⟩, ⟨18, _, (C22_str_pdu (os := africanOctets) (by decide)).1, rfl⟩, ⟨_, py!"OK", rfl, rfl, by decide, by decide⟩⟩

/-- The text arrives in both modes. -/
example : (handleSmsReceived py!"+CMTI: \"SM\",3" (holdingModem true) { smsTextMode := true }).2.callbacks = [.smsReceived (messageGot true false african py!"hi")] ∧
    (handleSmsReceived py!"+CMTI: \"SM\",3" (holdingModem false) {}).2.callbacks = [.smsReceived (messageGot false false african py!"hi")] := by
  decide +kernel

attribute [local instance] asciiUnicode in
/-- In text mode the text itself is what the modem takes over. -/
example : sendSms py!"+2783" py!"hi" false senderModem { smsTextMode := true } =
    (.ok 0, { smsTextMode := true, smsRef := 8, sent := [⟨py!"+2783", py!"hi", 7, none⟩], sentSms := [(7, 0)], smsTrace := [.sent 7], log := [py!"hi" ++ [26], py!"AT+CMGS=\"+2783\"\r"] }) := by
  decide +kernel

end Gsm
