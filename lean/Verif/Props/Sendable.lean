import Verif.Lemmas.Sendable
import Verif.Props.ModemReference
import Verif.Props.ModemSend
/-! # Property C85: which messages can be sent -/
namespace Gsm
open Spec

/-- The address field exists exactly for the addresses that fit it. -/
theorem C85_address [PyUnicode] {a : PyStr} {smsc : Bool} : (∃ f, encodeAddressField a smsc = .ok f) ↔ Addressable smsc a := address_iff.1

/-- **Exactly the messages that can be sent.** -/
theorem C85_sendable [PyUnicode] {number text : PyStr} {reference : Int} {smsc : Option PyStr} {srr rd flash : Bool} :
    (∃ ps, encodeSmsSubmitPdu number text reference .none smsc srr rd flash = .ok ps) ↔
    (0 ≤ reference ∧ reference ≤ 255) ∧ Addressable false number ∧ SmscFits smsc ∧ Carried text := by
  have key : (∃ ps, encodeSmsSubmitPdu number text reference .none smsc srr rd flash = .ok ps) ↔
      (0 ≤ reference ∧ reference ≤ 255) ∧ Addressable false number ∧ SmscFits smsc ∧
        ∃ alphabet, chooseAlphabet text = .ok alphabet ∧ ∀ i < (partsOf text alphabet).getD 1,
          ∃ udh ptext, PartOf reference text alphabet (partsOf text alphabet) i udh ptext ∧ ∃ ud, userDataPart alphabet ptext udh = .ok ud := by
    constructor
    · rintro ⟨ps, h⟩
      obtain ⟨vbits, vpi, alphabet, h1, h2, h3⟩ := encodeSmsSubmitPdu_ok_iff.1 h
      obtain ⟨_, rfl, rfl⟩ | ⟨_, _, h, _⟩ | ⟨_, _, h, _⟩ := validityPart_ok h1
      · have hall : ∀ i < (partsOf text alphabet).getD 1, ∃ p, submitPart number text reference smsc flash
            (foOf 0 rd srr (partsOf text alphabet).isSome) [] alphabet (partsOf text alphabet) i = .ok p := by
          intro i hi
          have hl := h3.length_eq
          rw [List.length_range] at hl
          have := List.Forall₂.get h3 (i := i) (by simpa using hi) (by omega)
          simp at this
          exact ⟨_, this⟩
        have h0 : 0 < (partsOf text alphabet).getD 1 := by
          unfold partsOf; split <;> simp
        obtain ⟨g1, g2, g3, _⟩ := exists_part.1 (hall 0 h0)
        exact ⟨g1, g2, g3, alphabet, h2, fun i hi => (exists_part.1 (hall i hi)).2.2.2⟩
      · cases h
      · cases h
    · rintro ⟨g1, g2, g3, alphabet, h2, h3⟩
      obtain ⟨ps, h4, _⟩ := forall₂_range (R := fun i p => submitPart number text reference smsc flash
            (foOf 0 rd srr (partsOf text alphabet).isSome) [] alphabet (partsOf text alphabet) i = .ok p)
            (fun i hi => exists_part.2 ⟨g1, g2, g3, h3 i hi⟩)
      exact ⟨ps, encodeSmsSubmitPdu_ok_iff.2 ⟨0, [], alphabet, rfl, h2, h4⟩⟩
  rw [key]
  refine and_congr_right fun hr => and_congr_right fun _ => and_congr_right fun _ => ?_
  constructor
  · rintro ⟨alphabet, h1, h2⟩
    rcases chooseAlphabet_iff.1 h1 with ⟨henc, rfl⟩ | ⟨⟨pre, c, post, rfl, g1, g2, g3⟩, rfl⟩
    · by_cases hl : text.length > 160
      · have hp : partsOf text 0 = some (text.length / 160 + 1) := by
          simp [partsOf, maxMessageLength, hl]
        rw [hp, Option.getD_some] at h2
        have hpart : ∀ i < text.length / 160 + 1, text.length / 160 + 1 ≤ 255 ∧ septetCount ((text.drop (i * 153)).take 153) ≤ 248 := by
          intro i hi
          obtain ⟨udh, ptext, ⟨hu, rfl⟩, hd⟩ := h2 i hi
          have := (concat_iff hr hi).1 udh hu
          exact ⟨this.1, ((has_userData_gsm7_part this.2).1 hd).2⟩
        refine .parts henc hl ?_ fun i hi => (hpart i (by omega)).2
        have := (hpart 0 (by omega)).1
        omega
      · have hp : partsOf text 0 = none := by
          simp [partsOf, maxMessageLength, hl]
        rw [hp, Option.getD_none] at h2
        obtain ⟨udh, ptext, ⟨rfl, rfl⟩, hd⟩ := h2 0 (by omega)
        have := has_userData_gsm7.1 hd
        exact .short this.1 henc (by omega) this.2.2
    · by_cases hl : (pre ++ c :: post).length > 70
      · have hp : partsOf (pre ++ c :: post) 8 = some ((pre ++ c :: post).length / 70 + 1) := by
          rw [partsOf, if_pos (by simpa [maxMessageLength] using hl)]; rfl
        rw [hp, Option.getD_some] at h2
        have hpart : ∀ i < (pre ++ c :: post).length / 70 + 1, (pre ++ c :: post).length / 70 + 1 ≤ 255 ∧ ∀ x ∈ ((pre ++ c :: post).drop (i * 67)).take 67, x < 65536 := by
          intro i hi
          obtain ⟨udh, ptext, ⟨hu, rfl⟩, hd⟩ := h2 i hi
          have := (concat_iff hr hi).1 udh hu
          rw [if_neg (by omega)] at hd
          exact ⟨this.1, (has_userData_ucs2_part this.2 (by simp)).1 hd⟩
        refine .wideParts g1 g2 g3 hl ?_ fun x hx => ?_
        · have := (hpart 0 (by omega)).1
          omega
        · rw [← slices_join] at hx
          obtain ⟨i, hi, hx⟩ := List.mem_flatMap.1 hx
          exact (hpart i (List.mem_range.1 hi)).2 x hx
      · have hp : partsOf (pre ++ c :: post) 8 = none := by
          rw [partsOf, if_neg (by simpa [maxMessageLength] using hl)]
        rw [hp, Option.getD_none] at h2
        obtain ⟨udh, ptext, ⟨rfl, rfl⟩, hd⟩ := h2 0 (by omega)
        exact .wideShort g1 g2 g3 (by omega) ((has_userData_ucs2 (by omega)).1 hd)
  · intro h
    cases h with
    | short h1 h2 h3 h4 =>
      have hp : partsOf text 0 = none := by
        rw [partsOf, if_neg (by simpa [maxMessageLength] using h3)]
      refine ⟨0, chooseAlphabet_iff.2 (.inl ⟨h2, rfl⟩), fun i hi => ?_⟩
      rw [hp]
      exact ⟨[], text, ⟨rfl, rfl⟩, has_userData_gsm7.2 ⟨h1, h2, h4⟩⟩
    | parts h1 h2 h3 h4 =>
      have hp : partsOf text 0 = some (text.length / 160 + 1) := by
        rw [partsOf, if_pos (by simpa [maxMessageLength] using h2)]; rfl
      refine ⟨0, chooseAlphabet_iff.2 (.inl ⟨h1, rfl⟩), fun i hi => ?_⟩
      rw [hp] at hi ⊢
      rw [Option.getD_some] at hi
      obtain ⟨udh, hu⟩ := (concat_iff hr hi).2 (by omega)
      refine ⟨udh, _, ⟨hu, rfl⟩, (has_userData_gsm7_part ((concat_iff hr hi).1 udh hu).2).2 ⟨fun c hc => ?_, h4 i (by omega)⟩⟩
      exact h1 c (List.mem_of_mem_drop (List.mem_of_mem_take hc))
    | @wideShort pre c post h1 h2 h3 h4 h5 =>
      have hp : partsOf (pre ++ c :: post) 8 = none := by
        rw [partsOf, if_neg (by simpa [maxMessageLength] using h4)]
      refine ⟨8, chooseAlphabet_iff.2 (.inr ⟨⟨pre, c, post, rfl, h1, h2, h3⟩, rfl⟩), fun i hi => ?_⟩
      rw [hp]
      exact ⟨[], _, ⟨rfl, rfl⟩, (has_userData_ucs2 h4).2 h5⟩
    | @wideParts pre c post h1 h2 h3 h4 h5 h6 =>
      have hp : partsOf (pre ++ c :: post) 8 = some ((pre ++ c :: post).length / 70 + 1) := by
        rw [partsOf, if_pos (by simpa [maxMessageLength] using h4)]; rfl
      refine ⟨8, chooseAlphabet_iff.2 (.inr ⟨⟨pre, c, post, rfl, h1, h2, h3⟩, rfl⟩), fun i hi => ?_⟩
      rw [hp] at hi ⊢
      rw [Option.getD_some] at hi
      obtain ⟨udh, hu⟩ := (concat_iff hr hi).2 (by omega)
      refine ⟨udh, _, ⟨hu, rfl⟩, ?_⟩
      rw [if_neg (by omega)]
      refine (has_userData_ucs2_part ((concat_iff hr hi).1 udh hu).2 (by simp)).2 fun x hx => h6 x ?_
      rw [← slices_join]
      exact List.mem_flatMap.2 ⟨i, List.mem_range.2 hi, hx⟩

/-- Whatever else is passed, the refusal is a `ValueError`, a `TypeError`, a `StopIteration` or an `IndexError`. -/
theorem C85_raises [PyUnicode] {number text : PyStr} {reference : Int} {smsc : Option PyStr} {srr rd flash : Bool} {e : PyErr}
    (h : encodeSmsSubmitPdu number text reference .none smsc srr rd flash = .error e) : EncodeErr e := by
  refine (show OnlyEnc (encodeSmsSubmitPdu number text reference .none smsc srr rd flash) from ?_) e h
  unfold encodeSmsSubmitPdu
  refine onlyEnc_bind onlyEnc_pure fun _ _ => onlyEnc_bind ?_ fun _ _ => ?_
  · intro e h
    unfold chooseAlphabet at h
    split at h
    · cases h
    · cases h
    · cases h; exact onlyEnc_gsm7 _ ‹_›
  · split <;> exact onlyEnc_loop (fun _ => onlyEnc_part) _

/-- A text whose first character outside the alphabet is ÿ is refused with a `TypeError`, whatever the number. -/
theorem C85_type_error [PyUnicode] {number pre post : PyStr} {reference : Int} {smsc : Option PyStr} {srr rd flash : Bool} (h : ∀ c ∈ pre, Encodable c) :
    encodeSmsSubmitPdu number (pre ++ 0xFF :: post) reference .none smsc srr rd flash = .error .typeError := by
  have hn : ¬ Encodable 0xFF := by
    rcases encodeGsm7Char_cases false 0xFF with h | h | h
    · obtain ⟨_, o, h, _⟩ := h
      have : encodeGsm7Char false 0xFF = .error .typeError := by decide
      rw [this] at h; cases h
    · exact h.1
    · exact h.1
  have hc : chooseAlphabet (pre ++ 0xFF :: post) = .error .typeError := by
    cases hk : chooseAlphabet (pre ++ 0xFF :: post) with
    | ok a =>
      rcases chooseAlphabet_ok hk with h' | h'
      · exact absurd (h'.1 0xFF (by simp)) hn
      · rcases chooseAlphabet_iff.1 hk with h'' | ⟨⟨pre', c, post', h1, h2, h3, h4⟩, _⟩
        · exact absurd (h''.1 0xFF (by simp)) hn
        · exfalso
          clear hk h'
          induction pre generalizing pre' with
          | nil =>
            cases pre' with
            | nil => simp at h1; exact h4 h1.1.symm
            | cons x pre' => simp at h1; exact hn (h1.1 ▸ h2 x (by simp))
          | cons x pre ih =>
            cases pre' with
            | nil => simp at h1; exact h3 (h1.1 ▸ h x (by simp))
            | cons y pre' => exact ih (fun z hz => h z (by simp [hz])) pre' (by simpa using (List.cons.inj h1).2) (fun z hz => h2 z (by simp [hz]))
    | error e =>
      unfold chooseAlphabet at hk
      split at hk
      · cases hk
      · cases hk
      · cases hk
        rename_i _ hne he
        rcases encodeGsm7_err he with rfl | rfl
        · exact (hne rfl).elim
        · rfl
  simp only [encodeSmsSubmitPdu, validityPart, bind, Except.bind, hc]

/-- In PDU mode `sendSms` refuses exactly those messages, before anything is written, and changes nothing. -/
theorem C85_send [PyUnicode] {number text : PyStr} {flash : Bool} {env : Env} {s : St} (hm : s.smsTextMode = false) (hr : 0 ≤ s.smsRef ∧ s.smsRef ≤ 255) :
    (Addressable false number → Carried text → ∃ ps, encodeSmsSubmitPdu number text s.smsRef (sendFlash := flash) = .ok ps ∧
        SendSpec env (ps.flatMap pduCommands) number text s (sendSms number text flash env s).2 (sendSms number text flash env s).1) ∧
    (¬ (Addressable false number ∧ Carried text) → ∃ e, EncodeErr e ∧ sendSms number text flash env s = (.error e, s)) := by
  have hn : SmscFits (none : Option PyStr) := fun s h => by cases h
  have := C85_sendable (number := number) (text := text) (reference := s.smsRef) (smsc := none) (srr := true) (rd := false) (flash := flash)
  constructor
  · intro h1 h2
    obtain ⟨ps, hp⟩ := this.2 ⟨hr, h1, hn, h2⟩
    exact ⟨ps, hp, C38_pdu_mode hm hp⟩
  · intro h
    cases hp : encodeSmsSubmitPdu number text s.smsRef (sendFlash := flash) with
    | ok ps =>
      have := this.1 ⟨ps, hp⟩
      exact absurd ⟨this.2.1, this.2.2.2⟩ h
    | error e => exact ⟨e, C85_raises hp, C38_not_encodable hm hp⟩

/-- A text of 128 to 160 extension characters is short enough for one message by its length and is not split, so it is refused. -/
theorem C85_extension {n : Nat} (h1 : 128 ≤ n) (h2 : n ≤ 160) : ¬ Carried (List.replicate n 0x20AC) := by
  intro h
  have he : ∀ c ∈ List.replicate n 0x20AC, Encodable c := fun c hc => by
    rw [List.eq_of_mem_replicate hc]; exact .inr (.inl ⟨0x65, by decide, by decide, by decide⟩)
  generalize ht : List.replicate n 0x20AC = t at h he
  have hl : t.length = n := by rw [← ht]; simp
  cases h with
  | short _ _ _ h =>
    have : septetCost 0x20AC = 2 := by decide
    simp [← ht, septetCount, List.map_replicate, this] at h; omega
  | parts _ h => omega
  | wideShort _ h => exact h (he _ (by simp))
  | wideParts _ h => exact h (he _ (by simp))

section Examples
attribute [local instance] asciiUnicode

-- the conditions can all be met, and every one of them can fail
example : Carried py!"Hi" := .short (by decide) ((C02_accepts_iff _).1 ⟨[72, 105], by decide⟩) (by decide) (by decide)
example : Addressable false py!"+3161" := .intl ⟨by decide, by decide⟩ (by decide)
example : (encodeSmsSubmitPdu py!"+3161" py!"Hi" 0).isOk = true ∧ (encodeSmsSubmitPdu py!"+3161" py!"Hi" 256).isOk = false ∧
    (encodeSmsSubmitPdu py!"" py!"Hi" 0).isOk = false ∧ (encodeSmsSubmitPdu py!"+3161" py!"" 0).isOk = false := by decide +kernel
example : (encodeSmsSubmitPdu py!"1" (List.replicate 127 0x20AC)).isOk = true ∧ (encodeSmsSubmitPdu py!"1" (List.replicate 128 0x20AC)).isOk = false := by decide +kernel
example : (encodeSmsSubmitPdu py!"1" [0x4E2D, 0x1F600]).isOk = false ∧ (encodeSmsSubmitPdu py!"1" [0x4E2D, 0xFF]).isOk = true ∧
    encodeSmsSubmitPdu py!"1" [0xFF, 0x4E2D] = .error .typeError := by decide +kernel

end Examples

end Gsm
