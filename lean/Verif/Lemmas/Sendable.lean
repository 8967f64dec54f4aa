import Verif.Spec.Sendable
import Verif.Props.SubmitRound
/-! # Lemmas: which messages can be encoded -/
namespace Gsm
open Spec

theorem any_range_ext {c : Nat} : (List.range 128).any (fun s => gsmExtChar s == some c) = true ↔ ∃ s < 128, gsmExtChar s = some c := by
  simp [List.any_eq_true]

theorem basic_not_ext : ∀ s < 128, ∀ c, gsmExtChar s = some c → c ∉ gsm7Basic := by
  intro s _ c h
  unfold gsmExtChar at h
  split at h <;> simp at h <;> subst h <;> decide +kernel

theorem encodeGsm7Char_cost {c : Nat} {o : List Nat} (h : encodeGsm7Char false c = .ok o) : o.length = septetCost c := by
  unfold septetCost
  rcases encodeGsm7Char_ok h with ⟨i, rfl, hi⟩ | ⟨v, rfl, hv⟩ | ⟨_, h2, _⟩
  · rw [if_neg]; · rfl
    rw [any_range_ext]
    rintro ⟨s, hs, h⟩
    exact basic_not_ext s hs c h (List.mem_of_getElem? hi)
  · rw [if_pos (any_range_ext.2 ⟨v, gsm7Ext_std hv⟩)]; rfl
  · cases h2

theorem encodeGsm7_count : ∀ {t os : List Nat}, encodeGsm7 t = .ok os → os.length = septetCount t
  | [], os, h => by simp [encodeGsm7] at h; subst h; rfl
  | c :: t, os, h => by
    obtain ⟨o, r, ho, hr, rfl⟩ := encodeGsm7_cons_ok h
    rw [List.length_append, encodeGsm7Char_cost ho, encodeGsm7_count hr]
    simp [septetCount]

/-! ## The address -/
section
variable [PyUnicode]

theorem digit16_of_isdigit {c : Nat} (h : PyUnicode.isdigit c = true) : (digit16? c).isSome ↔ (PyUnicode.decimal c).isSome := by
  unfold digit16?
  by_cases hc : c < 128
  · rw [PyUnicode.isdigit_ascii c hc] at h
    have h' : 48 ≤ c ∧ c ≤ 57 := by simpa using h
    rw [PyUnicode.decimal_ascii c hc, if_pos h']
    simp [hexVal?, h']
  · have : hexVal? c = none := by
      unfold hexVal?
      rw [if_neg (by omega), if_neg (by omega), if_neg (by omega)]
    rw [this]; rfl

theorem semiOctetPairs_iff : ∀ (s : PyStr), s.length % 2 = 0 →
    (∀ os, semiOctetPairs s = .ok os → os.length = s.length / 2 ∧ ∀ c ∈ s, (digit16? c).isSome) ∧
    ((∀ c ∈ s, (digit16? c).isSome) → ∃ os, semiOctetPairs s = .ok os) ∧
    (∀ e, semiOctetPairs s = .error e → e = .valueError)
  | [], _ => by
    refine ⟨fun os h => ?_, fun _ => ⟨[], rfl⟩, fun e h => ?_⟩
    · simp [semiOctetPairs] at h; subst h; simp
    · simp [semiOctetPairs] at h
  | [a], h => by simp at h
  | a :: b :: s, h => by
    have ih := semiOctetPairs_iff s (by simp at h; omega)
    cases hb : digit16? b with
    | none =>
      refine ⟨fun os h => ?_, fun h => ?_, fun e h => ?_⟩
      · simp [semiOctetPairs, hb] at h
      · have := h b (by simp); simp [hb] at this
      · simpa [semiOctetPairs, hb] using h.symm
    | some hi =>
      cases ha : digit16? a with
      | none =>
        refine ⟨fun os h => ?_, fun h => ?_, fun e h => ?_⟩
        · simp [semiOctetPairs, hb, ha] at h
        · have := h a (by simp); simp [ha] at this
        · simpa [semiOctetPairs, hb, ha] using h.symm
      | some lo =>
        cases hr : semiOctetPairs s with
        | error e =>
          refine ⟨fun os h => ?_, fun h => ?_, fun e' h => ?_⟩
          · simp [semiOctetPairs, hb, ha, hr, bind, Except.bind] at h
          · obtain ⟨os, ho⟩ := ih.2.1 fun c hc => h c (by simp [hc])
            rw [hr] at ho; cases ho
          · have : e = e' := by simpa [semiOctetPairs, hb, ha, hr, bind, Except.bind] using h
            exact this ▸ ih.2.2 e hr
        | ok r =>
          have hl := ih.1 r hr
          refine ⟨fun os h => ?_, fun _ => ⟨(hi * 16 + lo) :: r, ?_⟩, fun e h => ?_⟩
          · have : (hi * 16 + lo) :: r = os := by simpa [semiOctetPairs, hb, ha, hr, bind, Except.bind, pure, Except.pure] using h
            subst this
            refine ⟨by simp [hl.1]; omega, fun c hc => ?_⟩
            simp only [List.mem_cons] at hc
            rcases hc with rfl | rfl | hc
            · simp [ha]
            · simp [hb]
            · exact hl.2 c hc
          · simp [semiOctetPairs, hb, ha, hr, bind, Except.bind, pure, Except.pure]
          · simp [semiOctetPairs, hb, ha, hr, bind, Except.bind, pure, Except.pure] at h

theorem isDigitStr_iff {s : PyStr} : isDigitStr s = true ↔ AllDigits s := by
  simp [isDigitStr, AllDigits, List.all_eq_true]

theorem encodeSemiOctets_iff {s : PyStr} (h : AllDigits s) :
    (∀ os, encodeSemiOctets s = .ok os → os.length = (s.length + 1) / 2 ∧ ValuedDigits s) ∧
    (ValuedDigits s → ∃ os, encodeSemiOctets s = .ok os) ∧ (∀ e, encodeSemiOctets s = .error e → e = .valueError) := by
  have hd : (∀ c ∈ s, (digit16? c).isSome) ↔ ValuedDigits s :=
    ⟨fun hs => ⟨h.1, fun c hc => ⟨h.2 c hc, (digit16_of_isdigit (h.2 c hc)).1 (hs c hc)⟩⟩,
      fun hs c hc => (digit16_of_isdigit (h.2 c hc)).2 (hs.2 c hc).2⟩
  unfold encodeSemiOctets
  by_cases ho : s.length % 2 = 1
  · rw [if_pos ho]
    have := semiOctetPairs_iff (s ++ [70]) (by simp; omega)
    refine ⟨fun os h => ?_, fun h => this.2.1 fun c hc => ?_, this.2.2⟩
    · have h1 := this.1 os h
      refine ⟨by rw [h1.1]; simp, hd.1 fun c hc => h1.2 c (by simp [hc])⟩
    · rcases List.mem_append.1 hc with hc | hc
      · exact hd.2 h c hc
      · simp at hc; subst hc; rw [digit16_F]; rfl
  · rw [if_neg ho]
    have := semiOctetPairs_iff s (by omega)
    refine ⟨fun os h => ?_, fun h => this.2.1 (hd.2 h), this.2.2⟩
    have h1 := this.1 os h
    exact ⟨by rw [h1.1]; omega, hd.1 h1.2⟩

theorem classify_digits {s : PyStr} (h : AllDigits s) : classifyAddress s = .ok (0xA1, s, false) := by
  have := isDigitStr_iff.2 h
  simp [classifyAddress, this, digitStr_alnum this]

theorem classify_plus {s : PyStr} (h : AllDigits s) : classifyAddress (43 :: s) = .ok (0x91, s, false) := by
  have := isDigitStr_iff.2 h
  simp [classifyAddress, this, isAlnumStr_plus]

theorem digits_field {num ds : PyStr} {toa : Nat} {smsc : Bool} (h : AllDigits ds) (hc : classifyAddress num = .ok (toa, ds, false)) :
    ((∃ f, encodeAddressField num smsc = .ok f) ↔ ValuedDigits ds ∧ ds.length ≤ (if smsc then 508 else 255)) ∧
    (∀ e, encodeAddressField num smsc = .error e → e = .valueError) := by
  have hs := encodeSemiOctets_iff h
  cases hr : encodeSemiOctets ds with
  | error e =>
    refine ⟨⟨?_, fun hd => ?_⟩, fun e' h' => ?_⟩
    · rintro ⟨f, hf⟩
      simp [encodeAddressField, hc, hr, bind, Except.bind] at hf
    · obtain ⟨os, ho⟩ := hs.2.1 hd.1
      rw [hr] at ho; cases ho
    · have : e = e' := by simpa [encodeAddressField, hc, hr, bind, Except.bind] using h'
      exact this ▸ hs.2.2 e hr
  | ok os =>
    have hl := hs.1 os hr
    have hb : ∀ n : Nat, (if smsc then (os.length + 1 : Nat) else ds.length) = n → encodeAddressField num smsc =
        (byteOf (n : Int)).bind fun l => .ok (l :: toa :: os) := by
      rintro n rfl
      cases smsc <;> simp [encodeAddressField, hc, hr, bind, Except.bind, pure, Except.pure]
    rw [hb _ rfl]
    have hle : (if smsc then (os.length + 1 : Nat) else ds.length) < 256 ↔ ds.length ≤ (if smsc then 508 else 255) := by
      cases smsc <;> simp [hl.1] <;> omega
    generalize (if smsc then (os.length + 1 : Nat) else ds.length) = n at hle
    by_cases hn : n < 256
    · rw [byteOf_ok hn]
      exact ⟨⟨fun _ => ⟨hl.2, hle.1 hn⟩, fun _ => ⟨_, rfl⟩⟩, fun e h' => by cases h'⟩
    · rw [byteOf_err (by omega)]
      exact ⟨⟨fun ⟨f, hf⟩ => by simp [Except.bind] at hf, fun h' => absurd (hle.2 h'.2) hn⟩, fun e h' => by simpa [Except.bind] using h'.symm⟩

/-- The errors `encodeSmsSubmitPdu` can raise. -/
def EncodeErr (e : PyErr) : Prop := e = .valueError ∨ e = .typeError ∨ e = .stopIteration ∨ e = .indexError

omit [PyUnicode] in
theorem encodeGsm7_err {t : PyStr} {e : PyErr} (h : encodeGsm7 t = .error e) : e = .valueError ∨ e = .typeError := by
  obtain ⟨_, c, _, _, _, _, rfl⟩ := C02_rejects h
  split
  · exact .inr rfl
  · exact .inl rfl

theorem name_field {a : PyStr} {smsc : Bool} (hne : a ≠ []) (h1 : ¬ AllDigits a) (h2 : ∀ ds, a = 43 :: ds → ¬ AllDigits ds) :
    ((∃ f, encodeAddressField a smsc = .ok f) ↔ (∀ c ∈ a, Encodable c) ∧ septetCount a ≤ 145) ∧
    (∀ e, encodeAddressField a smsc = .error e → EncodeErr e) := by
  have h1' : isDigitStr a = false := by
    rw [← Bool.not_eq_true, isDigitStr_iff]; exact h1
  have h2' : ∀ r, a = 43 :: r → isDigitStr r = false := fun r hr => by
    rw [← Bool.not_eq_true, isDigitStr_iff]; exact h2 r hr
  have hrej := C10_alpha_reject hne h1' h2' smsc
  cases he : encodeGsm7 a with
  | error e =>
    rw [hrej.1 e he]
    refine ⟨⟨fun ⟨f, hf⟩ => by simp at hf, fun h => ?_⟩, fun e' h' => ?_⟩
    · obtain ⟨os, ho⟩ := (C02_accepts_iff a).2 h.1
      rw [he] at ho; cases ho
    · cases h'
      rcases encodeGsm7_err he with h | h
      · exact .inl h
      · exact .inr (.inl h)
  | ok os =>
    have hc := encodeGsm7_count he
    have henc := (C02_accepts_iff a).1 ⟨os, he⟩
    by_cases hl : os.length ≤ 145
    · have hos : os ≠ [] := encodeGsm7_ne_nil he hne
      obtain ⟨out, hp, _, _, hlen⟩ := C03_pack_stream (p := 0) (by omega) (fun _ => hos) (encodeGsm7_lt he)
      have hl' : out.length = (7 * os.length + 7) / 8 := by simpa [fillBits] using hlen
      have hb : byteOf ((out.length * 2 : Nat) : Int) = .ok (out.length * 2) := byteOf_ok (show out.length * 2 < 256 by omega)
      have hok : encodeAddressField a smsc = .ok (out.length * 2 :: 0xD0 :: out) := by
        simp only [encodeAddressField, classify_alpha hne h1' h2', he, hp, hb, bind, Except.bind, pure, Except.pure, if_true]
      rw [hok]
      exact ⟨⟨fun _ => ⟨henc, by omega⟩, fun _ => ⟨_, rfl⟩⟩, fun e h' => by cases h'⟩
    · rw [hrej.2 os he (by omega)]
      refine ⟨⟨fun ⟨f, hf⟩ => by simp at hf, fun h => by omega⟩, fun e' h' => ?_⟩
      cases h'; exact .inl rfl

/-- The address field exists exactly for the addresses that fit it. -/
theorem address_iff {a : PyStr} {smsc : Bool} :
    ((∃ f, encodeAddressField a smsc = .ok f) ↔ Addressable smsc a) ∧ (∀ e, encodeAddressField a smsc = .error e → EncodeErr e) := by
  by_cases hne : a = []
  · subst hne
    rw [C09_empty]
    refine ⟨⟨fun ⟨f, hf⟩ => by simp at hf, fun h => ?_⟩, fun e h => by cases h; exact .inr (.inr (.inr rfl))⟩
    cases h with
    | loc h _ => exact absurd rfl h.1
    | name h => exact absurd rfl h
  by_cases hd : AllDigits a
  · have := digits_field (smsc := smsc) hd (classify_digits hd)
    refine ⟨this.1.trans ⟨fun h => .loc h.1 h.2, fun h => ?_⟩, fun e h => .inl (this.2 e h)⟩
    cases h with
    | loc h1 h2 => exact ⟨h1, h2⟩
    | intl h1 h2 =>
      have := hd.2 43 (by simp)
      rw [PyUnicode.isdigit_ascii 43 (by omega)] at this
      simp at this
    | name _ h1 => exact absurd hd h1
  by_cases hp : ∃ ds, a = 43 :: ds ∧ AllDigits ds
  · obtain ⟨ds, rfl, hds⟩ := hp
    have := digits_field (smsc := smsc) hds (classify_plus hds)
    refine ⟨this.1.trans ⟨fun h => .intl h.1 h.2, fun h => ?_⟩, fun e h => .inl (this.2 e h)⟩
    cases h with
    | loc h1 _ => exact absurd ⟨h1.1, fun c hc => (h1.2 c hc).1⟩ hd
    | intl h1 h2 => exact ⟨h1, h2⟩
    | name _ _ h1 => exact absurd hds (h1 ds rfl)
  · have hp' : ∀ ds, a = 43 :: ds → ¬ AllDigits ds := fun ds h1 h2 => hp ⟨ds, h1, h2⟩
    have := name_field (smsc := smsc) hne hd hp'
    refine ⟨this.1.trans ⟨fun h => .name hne hd hp' h.1 h.2, fun h => ?_⟩, this.2⟩
    cases h with
    | loc h1 _ => exact absurd ⟨h1.1, fun c hc => (h1.2 c hc).1⟩ hd
    | intl h1 _ => exact absurd ⟨h1.1, fun c hc => (h1.2 c hc).1⟩ (hp' _ rfl)
    | name _ _ _ h1 h2 => exact ⟨h1, h2⟩

theorem smscField_iff {smsc : Option PyStr} :
    ((∃ f, smscField smsc = .ok f) ↔ SmscFits smsc) ∧ (∀ e, smscField smsc = .error e → EncodeErr e) := by
  cases smsc with
  | none => exact ⟨⟨fun _ s h => (by cases h), fun _ => ⟨[0], rfl⟩⟩, fun e h => by cases h⟩
  | some s =>
    cases s with
    | nil => exact ⟨⟨fun _ s h hn => (by cases h; exact absurd rfl hn), fun _ => ⟨[0], rfl⟩⟩, fun e h => by cases h⟩
    | cons c s =>
      have := address_iff (a := c :: s) (smsc := true)
      refine ⟨this.1.trans ⟨fun h s' hs _ => (by cases hs; exact h), fun h => h _ rfl (by simp)⟩, this.2⟩

end

/-! ## The text -/

theorem has_userData_gsm7 {t : PyStr} : (∃ ud, userDataPart 0 t [] = .ok ud) ↔ t ≠ [] ∧ (∀ c ∈ t, Encodable c) ∧ septetCount t ≤ 255 := by
  constructor
  · rintro ⟨ud, h⟩
    obtain ⟨udl, body, _, hlt, _, ⟨_, os, ho, hp, hu⟩ | ⟨h0, _⟩⟩ := userDataPart_ok h
    · refine ⟨?_, (C02_accepts_iff t).1 ⟨os, ho⟩, ?_⟩
      · rintro rfl
        simp [encodeGsm7] at ho; subst ho
        simp [packSeptets] at hp
      · rw [← encodeGsm7_count ho]; simp at hu; omega
    · exact absurd rfl h0
  · rintro ⟨h1, h2, h3⟩
    obtain ⟨os, ho⟩ := (C02_accepts_iff t).2 h2
    rw [← encodeGsm7_count ho] at h3
    obtain ⟨out, hp, _⟩ := C03_pack_stream (p := 0) (by omega) (fun _ => encodeGsm7_ne_nil ho h1) (encodeGsm7_lt ho)
    exact ⟨os.length :: out, by simp [userDataPart, ho, hp, bind, Except.bind, pure, Except.pure, byteOf_ok (show os.length < 256 by omega)]⟩

theorem has_userData_gsm7_part {t : PyStr} {udh : List Nat} (hu : udh.length = 5) :
    (∃ ud, userDataPart 0 t udh = .ok ud) ↔ (∀ c ∈ t, Encodable c) ∧ septetCount t ≤ 248 := by
  have hn : udh ≠ [] := by rintro rfl; simp at hu
  constructor
  · rintro ⟨ud, h⟩
    obtain ⟨udl, body, _, hlt, _, ⟨_, os, ho, hp, hl⟩ | ⟨h0, _⟩⟩ := userDataPart_ok h
    · refine ⟨(C02_accepts_iff t).1 ⟨os, ho⟩, ?_⟩
      rw [← encodeGsm7_count ho]; simp [hn, hu] at hl; omega
    · exact absurd rfl h0
  · rintro ⟨h2, h3⟩
    obtain ⟨os, ho⟩ := (C02_accepts_iff t).2 h2
    rw [← encodeGsm7_count ho] at h3
    obtain ⟨out, hp, _⟩ := C03_pack_stream (p := 6) (by omega) (fun h => by omega) (encodeGsm7_lt ho)
    have hb : byteOf ((os.length + 1 + 5 + 1 : Nat) : Int) = .ok (os.length + 7) := by
      rw [byteOf_ok (show os.length + 1 + 5 + 1 < 256 by omega)]
    refine ⟨(os.length + 7) :: 5 :: udh ++ out, ?_⟩
    · simp only [userDataPart, ho, hp, bind, Except.bind, pure, Except.pure, hu, if_true, show (5 : Nat) > 0 from by omega,
        show ((5 + 1) * 8) % 7 = 6 from rfl, show (6 : Nat) > 0 from by omega, hb, show byteOf ((5 : Nat) : Int) = .ok 5 from rfl]

theorem encodeUcs2_iff {t : PyStr} : (∃ os, encodeUcs2 t = .ok os) ↔ ∀ c ∈ t, c < 65536 := by
  constructor
  · rintro ⟨os, h⟩
    by_contra hn
    rw [encodeUcs2_error hn] at h; cases h
  · intro h; exact ⟨_, encodeUcs2_ok h⟩

theorem has_userData_ucs2 {t : PyStr} (hl : t.length ≤ 70) : (∃ ud, userDataPart 8 t [] = .ok ud) ↔ ∀ c ∈ t, c < 65536 := by
  constructor
  · rintro ⟨ud, h⟩
    obtain ⟨udl, body, _, hlt, _, ⟨h0, _⟩ | ⟨_, ho, _⟩⟩ := userDataPart_ok h
    · cases h0
    · exact encodeUcs2_iff.1 ⟨_, ho⟩
  · intro h
    have hk : (ucs2Octets t).length < 256 := by rw [length_ucs2Octets]; omega
    exact ⟨_, by simp only [userDataPart, encodeUcs2_ok h, bind, Except.bind, pure, Except.pure, byteOf_ok hk, List.length_nil, gt_iff_lt, lt_self_iff_false, if_false, show (8 : Nat) ≠ 0 from by omega]; rfl⟩

theorem has_userData_ucs2_part {t : PyStr} {udh : List Nat} (hu : udh.length = 5) (hl : t.length ≤ 67) :
    (∃ ud, userDataPart 8 t udh = .ok ud) ↔ ∀ c ∈ t, c < 65536 := by
  constructor
  · rintro ⟨ud, h⟩
    obtain ⟨udl, body, _, hlt, _, ⟨h0, _⟩ | ⟨_, ho, _⟩⟩ := userDataPart_ok h
    · cases h0
    · exact encodeUcs2_iff.1 ⟨_, ho⟩
  · intro h
    have hk : byteOf (((ucs2Octets t).length + 5 + 1 : Nat) : Int) = .ok ((ucs2Octets t).length + 5 + 1) := by
      rw [byteOf_ok (show (ucs2Octets t).length + 5 + 1 < 256 by rw [length_ucs2Octets]; omega)]
    exact ⟨_, by
      simp only [userDataPart, encodeUcs2_ok h, bind, Except.bind, pure, Except.pure, hk, hu, if_false, show (8 : Nat) ≠ 0 from by omega,
        show (5 : Nat) > 0 from by omega, if_true, show byteOf ((5 : Nat) : Int) = .ok 5 from rfl]; rfl⟩

/-! ## The message -/

theorem chooseAlphabet_iff {t : PyStr} {a : Nat} : chooseAlphabet t = .ok a ↔
    ((∀ c ∈ t, Encodable c) ∧ a = 0) ∨
    ((∃ pre c post, t = pre ++ c :: post ∧ (∀ x ∈ pre, Encodable x) ∧ ¬ Encodable c ∧ c ≠ 0xFF) ∧ a = 8) := by
  have hfirst : ∀ {pre c post pre' c' post'}, pre ++ c :: post = pre' ++ c' :: post' → (∀ x ∈ pre, Encodable x) → ¬ Encodable c →
      (∀ x ∈ pre', Encodable x) → ¬ Encodable c' → c = c' := by
    intro pre c post pre'
    induction pre generalizing pre' with
    | nil =>
      intro c' post' h h1 h2 h3 h4
      cases pre' with
      | nil => simp at h; exact h.1
      | cons x pre' => simp at h; exact absurd (h.1 ▸ h3 x (by simp)) h2
    | cons x pre ih =>
      intro c' post' h h1 h2 h3 h4
      cases pre' with
      | nil => simp at h; exact absurd (h.1 ▸ h1 x (by simp)) h4
      | cons y pre' =>
        simp at h
        exact ih h.2 (fun z hz => h1 z (by simp [hz])) h2 (fun z hz => h3 z (by simp [hz])) h4
  unfold chooseAlphabet
  cases he : encodeGsm7 t with
  | ok os =>
    have h := (C02_accepts_iff t).1 ⟨os, he⟩
    constructor
    · intro ha; cases ha; exact .inl ⟨h, rfl⟩
    · rintro (⟨_, rfl⟩ | ⟨⟨pre, c, post, rfl, _, hc, _⟩, _⟩)
      · rfl
      · exact absurd (h c (by simp)) hc
  | error e =>
    obtain ⟨pre, c, post, rfl, h1, h2, rfl⟩ := C02_rejects he
    by_cases hc : c = 0xFF
    · rw [if_pos hc]
      constructor
      · intro h; cases h
      · rintro (⟨h, _⟩ | ⟨⟨pre', c', post', h3, h4, h5, h6⟩, _⟩)
        · exact absurd (h c (by simp)) h2
        · exact absurd ((hfirst h3 h1 h2 h4 h5) ▸ hc) h6
    · rw [if_neg hc]
      constructor
      · intro h; cases h; exact .inr ⟨⟨pre, c, post, rfl, h1, h2, hc⟩, rfl⟩
      · rintro (⟨h, _⟩ | ⟨_, rfl⟩)
        · exact absurd (h c (by simp)) h2
        · rfl

/-- The text of a message, or of a part, and its header. -/
theorem exists_part [PyUnicode] {number text : PyStr} {reference : Int} {smsc : Option PyStr} {flash : Bool} {fo alphabet : Nat} {parts : Option Nat} {i : Nat} :
    (∃ p, submitPart number text reference smsc flash fo [] alphabet parts i = .ok p) ↔
    (0 ≤ reference ∧ reference ≤ 255) ∧ Addressable false number ∧ SmscFits smsc ∧
      ∃ udh ptext, PartOf reference text alphabet parts i udh ptext ∧ ∃ ud, userDataPart alphabet ptext udh = .ok ud := by
  constructor
  · rintro ⟨p, h⟩
    obtain ⟨sca, mr, da, vp, udh, ptext, ud, h1, h2, h3, h4, _, h6, _⟩ := submitPart_ok_iff.1 h
    have := byteOf_eq_ok.1 h3
    exact ⟨by omega, address_iff.1.1 ⟨_, h4⟩, smscField_iff.1.1 ⟨_, h1⟩, udh, ptext, h2, ud, h6⟩
  · rintro ⟨hr, hn, hs, udh, ptext, h2, ud, h6⟩
    obtain ⟨da, h4⟩ := address_iff.1.2 hn
    obtain ⟨sca, h1⟩ := smscField_iff.1.2 hs
    exact ⟨_, submitPart_ok_iff.2 ⟨sca, reference.toNat, da, [], udh, ptext, ud, h1, h2, byteOf_eq_ok.2 (by omega), h4, rfl, h6, rfl⟩⟩

theorem concat_iff {r : Int} {n i : Nat} (hr : 0 ≤ r ∧ r ≤ 255) (hi : i < n) :
    (∀ udh, encodeConcatenation r n (i + 1 : Nat) = .ok udh → n ≤ 255 ∧ udh.length = 5) ∧
    (n ≤ 255 → ∃ udh, encodeConcatenation r n (i + 1 : Nat) = .ok udh) := by
  unfold encodeConcatenation
  rw [if_neg (by omega)]
  constructor
  · intro udh h
    obtain ⟨h1, h2⟩ := bytesOf_ok_iff.1 h
    have := h1 (n : Int) (by simp)
    refine ⟨by omega, ?_⟩
    subst h2; rfl
  · intro hn
    refine ⟨_, bytesOf_ok_iff.2 ⟨?_, rfl⟩⟩
    intro x hx
    simp only [List.mem_cons, List.not_mem_nil, or_false] at hx
    omega

/-! ## The refusals -/

/-- Every error is one of `EncodeErr`. -/
def OnlyEnc {α : Type} (x : Except PyErr α) : Prop := ∀ e, x = .error e → EncodeErr e

theorem onlyEnc_bind {α β : Type} {x : Except PyErr α} {f : α → Except PyErr β} (h1 : OnlyEnc x) (h2 : ∀ a, x = .ok a → OnlyEnc (f a)) : OnlyEnc (x >>= f) := by
  intro e h
  cases hx : x with
  | error e' => rw [hx] at h; cases h; exact h1 e hx
  | ok a => rw [hx] at h; exact h2 a hx e h

theorem onlyEnc_pure {α : Type} {a : α} : OnlyEnc (pure a : Except PyErr α) := fun e h => by cases h

theorem onlyEnc_byte {x : Int} : OnlyEnc (byteOf x) := by
  intro e h
  unfold byteOf at h
  split at h
  · cases h
  · cases h; exact .inl rfl

theorem onlyEnc_bytes : ∀ {xs : List Int}, OnlyEnc (bytesOf xs)
  | [] => onlyEnc_pure
  | x :: xs => by
    unfold bytesOf
    exact onlyEnc_bind onlyEnc_byte fun _ _ => onlyEnc_bind onlyEnc_bytes fun _ _ => onlyEnc_pure

theorem onlyEnc_gsm7 {t : PyStr} : OnlyEnc (encodeGsm7 t) := fun e h => by
  rcases encodeGsm7_err h with h | h
  · exact .inl h
  · exact .inr (.inl h)

theorem onlyEnc_pack {os : List Nat} {p : Nat} : OnlyEnc (packSeptets os p) := by
  intro e h
  unfold packSeptets at h
  split at h
  · split at h
    · cases h; exact .inr (.inr (.inl rfl))
    · cases h
  · cases h

theorem onlyEnc_ucs2 {t : PyStr} : OnlyEnc (encodeUcs2 t) := by
  intro e h
  by_cases hb : ∀ c ∈ t, c < 65536
  · rw [encodeUcs2_ok hb] at h; cases h
  · rw [encodeUcs2_error hb] at h; cases h; exact .inl rfl

theorem onlyEnc_userData {a : Nat} {t : PyStr} {udh : List Nat} : OnlyEnc (userDataPart a t udh) := by
  unfold userDataPart
  extract_lets n jp
  have hjp : ∀ x, OnlyEnc (jp x) := by
    rintro ⟨l, d⟩
    show OnlyEnc (if udh.length > 0 then _ else _)
    split
    · exact onlyEnc_bind onlyEnc_byte fun _ _ => onlyEnc_bind onlyEnc_byte fun _ _ => onlyEnc_pure
    · exact onlyEnc_bind onlyEnc_byte fun _ _ => onlyEnc_pure
  split
  · refine onlyEnc_bind onlyEnc_gsm7 fun _ _ => ?_
    split <;> exact onlyEnc_bind onlyEnc_pack fun _ _ => onlyEnc_bind onlyEnc_pure fun _ _ => hjp _
  · exact onlyEnc_bind onlyEnc_ucs2 fun _ _ => onlyEnc_bind onlyEnc_pure fun _ _ => hjp _

theorem onlyEnc_part [PyUnicode] {number text : PyStr} {reference : Int} {smsc : Option PyStr} {flash : Bool} {fo alphabet : Nat} {vpi : List Int} {parts : Option Nat} {i : Nat} :
    OnlyEnc (submitPart number text reference smsc flash fo vpi alphabet parts i) := by
  unfold submitPart
  refine onlyEnc_bind smscField_iff.2 fun _ _ => ?_
  cases parts with
  | none =>
    exact onlyEnc_bind onlyEnc_pure fun _ _ => onlyEnc_bind onlyEnc_byte fun _ _ => onlyEnc_bind address_iff.2 fun _ _ =>
      onlyEnc_bind onlyEnc_bytes fun _ _ => onlyEnc_bind onlyEnc_userData fun _ _ => onlyEnc_pure
  | some n =>
    refine onlyEnc_bind ?_ fun _ _ => onlyEnc_bind onlyEnc_pure fun _ _ => onlyEnc_bind onlyEnc_byte fun _ _ => onlyEnc_bind address_iff.2 fun _ _ =>
      onlyEnc_bind onlyEnc_bytes fun _ _ => onlyEnc_bind onlyEnc_userData fun _ _ => onlyEnc_pure
    unfold encodeConcatenation
    split <;> exact onlyEnc_bytes

theorem onlyEnc_loop {part : Nat → Except PyErr Pdu} (h : ∀ i, OnlyEnc (part i)) : ∀ is, OnlyEnc (submitLoop part is)
  | [] => onlyEnc_pure
  | i :: is => onlyEnc_bind (h i) fun _ _ => onlyEnc_bind (onlyEnc_loop h is) fun _ _ => onlyEnc_pure

end Gsm
