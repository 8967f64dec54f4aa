import Verif.Lemmas.SubmitRound
/-! # Properties C12, C15, C16, C20, C21: fields of SMS-SUBMIT PDUs -/
namespace Gsm
open Spec

theorem semiOctetPairs_length [PyUnicode] : ∀ {s os : List Nat}, semiOctetPairs s = .ok os →
    os.length = s.length / 2
  | [], os, h => by simp [semiOctetPairs] at h; simp [h]
  | [a], os, h => by simp [semiOctetPairs] at h; simp [h]
  | a :: b :: s, os, h => by
    rw [semiOctetPairs] at h
    split at h
    · simp only [except_bind_ok, pure, Except.pure, Except.ok.injEq] at h
      obtain ⟨r, hr, rfl⟩ := h
      have := semiOctetPairs_length hr
      simp [this]; omega
    · cases h

theorem encodeTimestamp_length [PyUnicode] {d : DateTime} {os : List Nat}
    (h : encodeTimestamp d = .ok os) : os.length = 7 := by
  unfold encodeTimestamp at h
  split at h
  · cases h
  · rename_i off _
    rw [except_bind_ok] at h
    obtain ⟨z, hz, h⟩ := h
    have hz2 : z.length = 2 := by
      unfold encodeTzStr at hz
      split at hz
      · cases hz; rfl
      · rw [except_bind_ok] at hz
        obtain ⟨_, _, hz⟩ := hz
        cases hz; rfl
    have hl : (strftimeCompact d ++ z).length = 14 := by simp [strftimeCompact, pad2, hz2]
    unfold encodeSemiOctets at h
    rw [hl] at h
    simp only [show ¬ (14 % 2 = 1) by omega, if_false] at h
    rw [semiOctetPairs_length h, hl]

theorem bytesOf_length {xs : List Int} {os : List Nat} (h : bytesOf xs = .ok os) : os.length = xs.length := by
  rw [(bytesOf_ok_iff.1 h).2, List.length_map]

/-- Octets of TP-VP, by the kind of validity. -/
def vpLength : Validity → Nat
  | .relative _ => 1
  | .absolute _ => 7
  | _ => 0

/-- TP-VPF value, by the kind of validity: 0 absent, 2 relative, 3 absolute. -/
def vpFormat : Validity → Nat
  | .relative _ => 2
  | .absolute _ => 3
  | _ => 0

/-- `p` carries the fields `F`, with the given service centre and destination, for the given
validity argument (which fixes the extent of TP-VP). These conditions determine `F`, see
`IsSubmit.unique`. -/
structure IsSubmit [PyUnicode] (number : PyStr) (smsc : Option PyStr) (validity : Validity) (p : Pdu)
    (F : SubmitFields) : Prop where
  data : p.data = F.octets
  sca : smscField smsc = .ok F.sca
  da : encodeAddressField number = .ok F.da
  vp : F.vp.length = vpLength validity

theorem IsSubmit.unique [PyUnicode] {number : PyStr} {smsc : Option PyStr} {validity : Validity} {p : Pdu}
    {F G : SubmitFields} (hF : IsSubmit number smsc validity p F) (hG : IsSubmit number smsc validity p G) :
    F = G := by
  obtain ⟨d1, s1, a1, v1⟩ := hF
  obtain ⟨d2, s2, a2, v2⟩ := hG
  rw [d1] at d2
  rw [s1] at s2; rw [a1] at a2; rw [← v2] at v1
  cases F; cases G
  simp only [Except.ok.injEq] at s2 a2 v1
  subst s2; subst a2
  simp only [SubmitFields.octets, SubmitFields.tpdu, List.append_cancel_left_eq, List.cons_append,
    List.append_assoc, List.cons.injEq] at d2
  obtain ⟨rfl, rfl, rfl, rfl, h⟩ := d2
  obtain ⟨rfl, h'⟩ := List.append_inj h v1
  obtain ⟨rfl, rfl⟩ := List.cons.inj h'
  rfl

theorem forall₂_mem_right {α β} {R : α → β → Prop} {l : List α} {ps : List β} (h : List.Forall₂ R l ps) {p : β}
    (hp : p ∈ ps) : ∃ i ∈ l, R i p := by
  induction h with
  | nil => simp at hp
  | cons h _ ih =>
    rcases List.mem_cons.1 hp with rfl | hp
    · exact ⟨_, by simp, h⟩
    · obtain ⟨i, hi, hr⟩ := ih hp
      exact ⟨i, by simp [hi], hr⟩

theorem submit_inv [PyUnicode] {number text : PyStr} {reference : Int}
    {validity : Validity} {smsc : Option PyStr} {srr rd flash : Bool} {ps : List Pdu}
    (h : encodeSmsSubmitPdu number text reference validity smsc srr rd flash = .ok ps) :
    ∃ alphabet, chooseAlphabet text = .ok alphabet ∧ validity ≠ .otherType ∧
      List.Forall₂ (fun i p => ∃ F udh ptext, IsSubmit number smsc validity p F ∧
        F.fo = foOf (vbitsOf validity) rd srr (partsOf text alphabet).isSome ∧
        reference = F.mr ∧ F.mr < 256 ∧ F.pid = 0 ∧ F.dcs = dcsOf flash alphabet ∧
        (∃ vpi, validityPart validity = .ok (vbitsOf validity, vpi) ∧ bytesOf vpi = .ok F.vp) ∧
        PartOf reference text alphabet (partsOf text alphabet) i udh ptext ∧
        userDataPart alphabet ptext udh = .ok (F.udl :: F.ud) ∧ p.tpduLength = p.data.length - 1)
        (List.range ((partsOf text alphabet).getD 1)) ps := by
  obtain ⟨vbits, vpi, alphabet, h1, h2, h3⟩ := encodeSmsSubmitPdu_ok_iff.1 h
  have hv := validityPart_ok h1
  have hvb : vbits = vbitsOf validity ∧ validity ≠ .otherType := by
    rcases hv with ⟨rfl, rfl, _⟩ | ⟨t, x, rfl, _, rfl, _⟩ | ⟨t, x, rfl, _, rfl, _⟩ <;> simp [vbitsOf]
  obtain ⟨rfl, hvo⟩ := hvb
  refine ⟨alphabet, h2, hvo, h3.imp ?_⟩
  intro i p hp
  obtain ⟨sca, mr, da, vp, udh, ptext, ud, e1, e2, e3, e4, e5, e6, rfl⟩ := submitPart_ok_iff.1 hp
  obtain ⟨udl, body, he, _⟩ := userDataPart_ok e6
  subst he
  have hmr := byteOf_eq_ok.1 e3
  generalize (if udh = [] then body else udh.length :: udh ++ body) = ud at *
  refine ⟨⟨sca, foOf (vbitsOf validity) rd srr (partsOf text alphabet).isSome, mr, da, 0, dcsOf flash alphabet,
    vp, udl, ud⟩, udh, ptext, ⟨?_, e1, e4, ?_⟩, rfl,
    hmr.2, by simp only; omega, rfl, rfl, ⟨vpi, h1, e5⟩, e2, e6, rfl⟩
  · simp only [SubmitFields.octets, SubmitFields.tpdu, List.append_assoc, List.cons_append]
  · simp only [bytesOf_length e5]
    rcases hv with ⟨rfl, _, rfl⟩ | ⟨t, x, rfl, _, _, rfl⟩ | ⟨t, x, rfl, hx, _, rfl⟩
    · rfl
    · rfl
    · simp [encodeTimestamp_length hx, vpLength]

/-! ### C12 -/

theorem submitPart_vp_error [PyUnicode] {number text : PyStr} {reference : Int} {smsc : Option PyStr}
    {sendFlash : Bool} {fo fo' : Nat} {vpi vpi' : List Int} {alphabet : Nat} {parts : Option Nat} {i : Nat}
    {p : Pdu} (h : submitPart number text reference smsc sendFlash fo vpi alphabet parts i = .ok p)
    {e : PyErr} (he : bytesOf vpi' = .error e) :
    submitPart number text reference smsc sendFlash fo' vpi' alphabet parts i = .error e := by
  obtain ⟨sca, mr, da, vp, udh, ptext, ud, e1, e2, e3, e4, e5, e6, rfl⟩ := submitPart_ok_iff.1 h
  unfold submitPart
  cases parts with
  | none => simp [e1, e3, e4, he, bind, Except.bind, pure, Except.pure]
  | some n =>
    have e2' := e2.1
    simp only [e1, e3, e4, he, e2', bind, Except.bind, pure, Except.pure]

/-- C12. A relative validity below five minutes (zero and negative included) never gives a PDU. -/
theorem C12_never [PyUnicode] {number text : PyStr} {reference : Int} {smsc : Option PyStr}
    {srr rd flash : Bool} {v : Timedelta} (hs : v.seconds < 86400) (hv : v.total < 300) :
    ∀ ps, encodeSmsSubmitPdu number text reference (.relative v) smsc srr rd flash ≠ .ok ps := by
  intro ps h
  obtain ⟨alphabet, h1, _, h2⟩ := submit_inv h
  have hpos : 0 < (partsOf text alphabet).getD 1 := by
    unfold partsOf; split <;> simp
  obtain ⟨n, hn⟩ : ∃ n, (partsOf text alphabet).getD 1 = n + 1 := ⟨_, (Nat.succ_pred_eq_of_pos hpos).symm⟩
  rw [hn, List.range_succ_eq_map] at h2
  cases h2 with
  | cons hp _ =>
    obtain ⟨F, udh, ptext, _, _, _, _, _, _, ⟨vpi, hv1, hv2⟩, _⟩ := hp
    obtain ⟨z, hz, hz0⟩ := (C11_encode_range hs).2 hv
    simp only [validityPart, hz, bind, Except.bind, pure, Except.pure, Except.ok.injEq, Prod.mk.injEq] at hv1
    obtain ⟨_, rfl⟩ := hv1
    have := (bytesOf_ok_iff.1 hv2).1 z (by simp)
    omega

/-- C12. The error is `ValueError`, whenever the same call without a validity would succeed. -/
theorem C12_value_error [PyUnicode] {number text : PyStr} {reference : Int} {smsc : Option PyStr}
    {srr rd flash : Bool} {v : Timedelta} (hs : v.seconds < 86400) (hv : v.total < 300) {ps : List Pdu}
    (h : encodeSmsSubmitPdu number text reference .none smsc srr rd flash = .ok ps) :
    encodeSmsSubmitPdu number text reference (.relative v) smsc srr rd flash = .error .valueError := by
  obtain ⟨vbits, vpi, alphabet, h1, h2, h3⟩ := encodeSmsSubmitPdu_ok_iff.1 h
  obtain ⟨z, hz, hz0⟩ := (C11_encode_range hs).2 hv
  have hb : bytesOf [z] = .error .valueError := bytesOf_error (by simp; omega)
  unfold encodeSmsSubmitPdu
  simp only [validityPart, hz, h2, bind, Except.bind, pure, Except.pure]
  unfold partsOf at h3
  split
  · rename_i hl
    simp only [hl, if_true, Option.isSome_some, Option.getD_some] at h3
    rw [List.range_succ_eq_map] at h3 ⊢
    cases h3 with
    | cons hp _ => simp only [submitLoop, submitPart_vp_error hp hb, bind, Except.bind]
  · rename_i hl
    simp only [hl, if_false, Option.isSome_none, Option.getD_none] at h3
    rw [show List.range 1 = [0] from rfl] at h3 ⊢
    cases h3 with
    | cons hp _ => simp only [submitLoop, submitPart_vp_error hp hb, bind, Except.bind]

-- 4 min 59 s is refused, 5 min accepted, same message otherwise ("1", "Hi")
attribute [local instance] asciiUnicode in
example : encodeSmsSubmitPdu [49] [72, 105] 0 (.relative ⟨0, 299, 0⟩) = .error .valueError ∧
    (encodeSmsSubmitPdu [49] [72, 105] 0 (.relative ⟨0, 300, 0⟩)).toOption.isSome = true ∧
    (encodeSmsSubmitPdu [49] [72, 105]).toOption.isSome = true := by decide +kernel

/-! ### C15 -/

/-- C15. Data coding scheme of every produced PDU, and the alphabet a decoder takes from it. -/
theorem C15_data_coding [PyUnicode] {number text : PyStr} {reference : Int} {validity : Validity}
    {smsc : Option PyStr} {srr rd flash : Bool} {ps : List Pdu}
    (h : encodeSmsSubmitPdu number text reference validity smsc srr rd flash = .ok ps) :
    ∀ p ∈ ps, ∃ F, IsSubmit number smsc validity p F ∧
      ((∀ c ∈ text, Encodable c) → F.dcs = (if flash then 0x10 else 0x00) ∧ decodeDataCoding F.dcs = 0) ∧
      (¬ (∀ c ∈ text, Encodable c) → F.dcs = (if flash then 0x18 else 0x08) ∧ decodeDataCoding F.dcs = 2) := by
  obtain ⟨alphabet, h1, _, h2⟩ := submit_inv h
  intro p hp
  obtain ⟨i, _, F, udh, ptext, hF, _, _, _, _, hd, _⟩ := forall₂_mem_right h2 hp
  refine ⟨F, hF, ?_, ?_⟩
  · intro he
    rcases chooseAlphabet_ok h1 with ⟨_, rfl⟩ | ⟨hn, _⟩
    · rw [hd]; cases flash <;> simp [dcsOf] <;> decide
    · exact absurd he hn
  · intro he
    rcases chooseAlphabet_ok h1 with ⟨hn, _⟩ | ⟨_, rfl⟩
    · exact absurd hn he
    · rw [hd]; cases flash <;> simp [dcsOf] <;> decide

attribute [local instance] asciiUnicode in
example : (encodeSmsSubmitPdu [49] [72, 0x20AC] 0 .none none true false true).map (·.map (·.data)) =
      .ok [[0, 0x21, 0, 1, 0xA1, 0xF1, 0, 0x10, 3, 0xC8, 0x4D, 0x19]] ∧
    (encodeSmsSubmitPdu [49] [72, 0x4E2D] 0 .none none true false true).map (·.map (·.data)) =
      .ok [[0, 0x21, 0, 1, 0xA1, 0xF1, 0, 0x18, 4, 0, 72, 0x4E, 0x2D]] := by decide +kernel

/-! ### C16 -/

/-- C16. First octet of every produced PDU: SUBMIT, and each flag says exactly what was asked. -/
theorem C16_first_octet [PyUnicode] {number text : PyStr} {reference : Int} {validity : Validity}
    {smsc : Option PyStr} {srr rd flash : Bool} {ps : List Pdu}
    (h : encodeSmsSubmitPdu number text reference validity smsc srr rd flash = .ok ps) :
    ∀ p ∈ ps, ∃ F, IsSubmit number smsc validity p F ∧ F.fo < 128 ∧ F.fo % 4 = 1 ∧
      F.fo.testBit 2 = rd ∧ F.fo.testBit 5 = srr ∧ (F.fo.testBit 6 = true ↔ 2 ≤ ps.length) ∧
      F.fo / 8 % 4 = vpFormat validity := by
  obtain ⟨alphabet, h1, hv, h2⟩ := submit_inv h
  intro p hp
  obtain ⟨i, _, F, udh, ptext, hF, hfo, _⟩ := forall₂_mem_right h2 hp
  have hlen : ps.length = (partsOf text alphabet).getD 1 := by
    rw [← h2.length_eq, List.length_range]
  have hmulti : (partsOf text alphabet).isSome = true ↔ 2 ≤ ps.length := by
    rw [hlen]; unfold partsOf
    split
    · rename_i hl
      simp only [Option.isSome_some, Option.getD_some, true_iff]
      have : 0 < maxMessageLength alphabet := by unfold maxMessageLength; split <;> omega
      have := (Nat.one_le_div_iff this).2 (le_of_lt hl)
      omega
    · simp
  have hfacts : ∀ (v : Nat) (mp : Bool), v = 0 ∨ v = 0x10 ∨ v = 0x18 →
      foOf v rd srr mp < 128 ∧ foOf v rd srr mp % 4 = 1 ∧ (foOf v rd srr mp).testBit 2 = rd ∧
      (foOf v rd srr mp).testBit 5 = srr ∧ (foOf v rd srr mp).testBit 6 = mp ∧
      foOf v rd srr mp / 8 % 4 = v / 8 := by
    rintro v mp (rfl | rfl | rfl) <;> cases rd <;> cases srr <;> cases mp <;> decide
  obtain ⟨f1, f2, f3, f4, f5, f6⟩ := hfacts (vbitsOf validity) (partsOf text alphabet).isSome
    (by cases validity <;> simp [vbitsOf])
  rw [← hfo] at f1 f2 f3 f4 f5 f6
  refine ⟨F, hF, f1, f2, f3, f4, ?_, ?_⟩
  · rw [f5, hmulti]
  · rw [f6]; cases validity <;> simp [vbitsOf, vpFormat]

/-! ### C21 -/

/-- C21. `tpduLength` is one less than the number of octets: right without SMSC, and too large by
the length of the SMSC field minus one otherwise. `decodeSmsPdu` reports the right number. -/
theorem C21_tpdu_length [PyUnicode] {number text : PyStr} {reference : Int} {validity : Validity}
    {smsc : Option PyStr} {srr rd flash : Bool} {ps : List Pdu}
    (h : encodeSmsSubmitPdu number text reference validity smsc srr rd flash = .ok ps) :
    ∀ p ∈ ps, ∃ F, IsSubmit number smsc validity p F ∧
      (smsc = none ∨ smsc = some [] → p.tpduLength = F.tpdu.length) ∧
      p.tpduLength + 1 = F.tpdu.length + F.sca.length ∧
      (smsc ≠ none → smsc ≠ some [] → F.tpdu.length < p.tpduLength) := by
  obtain ⟨alphabet, h1, hv, h2⟩ := submit_inv h
  intro p hp
  obtain ⟨i, _, F, udh, ptext, hF, _, _, _, _, _, _, _, _, ht⟩ := forall₂_mem_right h2 hp
  have hd := hF.data
  have hpos : 0 < F.tpdu.length := by simp [SubmitFields.tpdu]
  have hl : p.tpduLength + 1 = F.tpdu.length + F.sca.length := by
    rw [ht, hd, SubmitFields.octets, List.length_append]; omega
  refine ⟨F, hF, ?_, hl, ?_⟩
  · intro hs
    have : F.sca = [0] := by
      have := hF.sca
      rcases hs with rfl | rfl <;> simp [smscField] at this <;> exact this.symm
    rw [this] at hl; simpa using hl
  · intro h3 h4
    have h5 := hF.sca
    have : 2 ≤ F.sca.length := by
      match smsc, h3, h4 with
      | some (c :: s), _, _ =>
        simp only [smscField, encodeAddressField, except_bind_ok] at h5
        obtain ⟨⟨toa, a, an⟩, _, h5⟩ := h5
        split at h5
        · simp only [except_bind_ok, pure, Except.pure, Except.ok.injEq] at h5
          obtain ⟨_, _, _, _, _, _, h5⟩ := h5
          rw [← h5]; simp
        · simp only [except_bind_ok, pure, Except.pure, Except.ok.injEq] at h5
          obtain ⟨_, _, _, _, h5⟩ := h5
          rw [← h5]; simp
    omega

/-- C21. What `decodeSmsPdu` reports as `tpdu_length` for a produced PDU. -/
theorem C21_decoded_length [PyUnicode] {number text : PyStr} {reference : Int} {validity : Validity}
    {smsc smsc' : Option PyStr} {srr rd flash : Bool} {ps : List Pdu} (hs : SmscOk smsc smsc')
    (h : encodeSmsSubmitPdu number text reference validity smsc srr rd flash = .ok ps) :
    ∀ p ∈ ps, ∃ F, IsSubmit number smsc validity p F ∧
      ∀ d, (∀ x ∈ p.data, x < 256) → decodeSmsPduOctets p.data = .ok d →
        d.tpduLength = F.tpdu.length ∧ d.smsc = smsc' := by
  intro p hp
  obtain ⟨F, hF, _⟩ := C21_tpdu_length h p hp
  refine ⟨F, hF, fun d ho hd => ?_⟩
  obtain ⟨f, e1, e2, e3⟩ := smsc_field hs
  have := hF.sca
  rw [e1] at this; cases this
  rw [hF.data] at hd ho
  unfold decodeSmsPduOctets SubmitFields.octets at hd
  rw [e3 _ (fun x hx => ho x (by simp [SubmitFields.octets, hx]))] at hd
  simp only [bind, Except.bind] at hd
  cases hb : decodeTpdu F.tpdu with
  | error e => rw [hb] at hd; cases hd
  | ok b =>
    rw [hb] at hd
    simp only [pure, Except.pure, Except.ok.injEq] at hd
    rw [← hd]
    simp only [List.length_append, and_true]; omega

attribute [local instance] asciiUnicode in
example : (encodeSmsSubmitPdu [49] [72] 0 .none none).map (·.map (·.tpduLength)) = .ok [9] ∧
    (encodeSmsSubmitPdu [49] [72] 0 .none (some [43, 49, 50])).map (·.map (·.tpduLength)) = .ok [11] := by
  decide +kernel

/-! ### C20 -/

/-- Characters of the extension table. -/
def IsExt (c : Nat) : Prop := ∃ s, gsmExtChar s = some c

theorem encodeGsm7_length {t os : List Nat} (h : encodeGsm7 t = .ok os) (hx : ∀ c ∈ t, ¬ IsExt c) :
    os.length = t.length := by
  induction t generalizing os with
  | nil => rw [encodeGsm7] at h; cases h; rfl
  | cons c t ih =>
    obtain ⟨o, r, ho, hr, rfl⟩ := encodeGsm7_cons_ok h
    have := ih hr (fun x hx' => hx x (by simp [hx']))
    rcases encodeGsm7Char_ok ho with ⟨i, rfl, hi⟩ | ⟨v, rfl, hv⟩ | ⟨_, h, _⟩
    · simp [this]
    · exact absurd ⟨v, (gsm7Ext_std hv).2⟩ (hx c (by simp))
    · cases h

/-- C20. Without extension-table characters in a GSM-7 text, the user data of every part (header
included) is at most 140 octets, and the declared length is right: septets for GSM-7 (the header
and fill bits counted as septets), octets for UCS2. -/
theorem C20_fits [PyUnicode] {number text : PyStr} {reference : Int} {validity : Validity}
    {smsc : Option PyStr} {srr rd flash : Bool} {ps : List Pdu}
    (h : encodeSmsSubmitPdu number text reference validity smsc srr rd flash = .ok ps)
    (hext : (∀ c ∈ text, Encodable c) → ∀ c ∈ text, ¬ IsExt c) :
    ∀ p ∈ ps, ∃ F, IsSubmit number smsc validity p F ∧ F.ud.length ≤ 140 ∧
      F.ud.length = (if decodeDataCoding F.dcs = 0 then (7 * F.udl + 7) / 8 else F.udl) := by
  obtain ⟨alphabet, h1, hv, h2⟩ := submit_inv h
  intro p hp
  obtain ⟨i, _, F, udh, ptext, hF, _, hmr, hmr', _, hdcs, _, hpart, hud, _⟩ := forall₂_mem_right h2 hp
  refine ⟨F, hF, ?_⟩
  obtain ⟨udl, body, he, hb1, hb2, hcase⟩ := userDataPart_ok hud
  simp only [List.cons.injEq] at he
  obtain ⟨rfl, he⟩ := he
  -- the header is empty or has 5 octets
  have hudh : (udh = [] ∧ ptext = text ∧ text.length ≤ maxMessageLength alphabet) ∨
      (udh.length = 5 ∧ (∀ c ∈ ptext, c ∈ text) ∧ ptext.length ≤ if alphabet = 0 then 153 else 67) := by
    unfold PartOf partsOf at hpart
    split at hpart
    · rename_i hsplit
      split at hsplit
      · cases hsplit
      · exact .inl ⟨hpart.1, hpart.2, by omega⟩
    · rename_i n hsplit
      obtain ⟨hc, rfl⟩ := hpart
      right
      refine ⟨?_, ?_, ?_⟩
      · unfold encodeConcatenation at hc
        rw [if_neg (by omega)] at hc
        rw [bytesOf_length hc]; rfl
      · intro c hc'
        split at hc'
        · exact List.mem_of_mem_drop (List.mem_of_mem_take hc')
        · exact List.mem_of_mem_drop (List.mem_of_mem_take hc')
      · split <;> simp
  rcases chooseAlphabet_ok h1 with ⟨hall, rfl⟩ | ⟨_, rfl⟩
  · rcases hcase with ⟨_, os, ho, hpk, hl⟩ | ⟨hne, _⟩
    swap; · exact absurd rfl hne
    have hdc : decodeDataCoding F.dcs = 0 := by rw [hdcs]; cases flash <;> decide
    rw [hdc, if_pos rfl]
    have h7 := encodeGsm7_lt ho
    have hx := hext hall
    rcases hudh with ⟨rfl, rfl, hlen⟩ | ⟨hu5, hsub, hlen⟩
    · simp only [if_true] at hpk hl he
      have hosl := encodeGsm7_length ho hx
      by_cases hnil : os = []
      · subst hnil; simp [packSeptets] at hpk
      · obtain ⟨out, hp', _, _, hl'⟩ := C03_pack_stream (p := 0) (by omega) (fun _ => hnil) h7
        rw [hpk] at hp'; cases hp'
        simp only [fillBits, if_true] at hl'
        rw [he, hl', hl]
        simp only [maxMessageLength, if_true] at hlen
        omega
    · have hne : udh ≠ [] := by rintro rfl; simp at hu5
      simp only [hne, if_false, hu5, show (5 + 1) * 8 % 7 = 6 by rfl, show (6 : Nat) > 0 by omega, if_true] at hpk hl he hlen
      have hosl := encodeGsm7_length ho (fun c hc => hx c (hsub c hc))
      obtain ⟨out, hp', _, _, hl'⟩ := C03_pack_stream (os := os) (p := 6) (by omega) (by omega) h7
      rw [hpk] at hp'; cases hp'
      rw [show fillBits 6 = 1 from rfl] at hl'
      have : F.ud.length = 6 + body.length := by rw [he]; simp [hu5]; omega
      rw [this, hl', hl]; omega
  · rcases hcase with ⟨h0, _⟩ | ⟨_, ho, hl⟩
    · cases h0
    have hdc : decodeDataCoding F.dcs ≠ 0 := by rw [hdcs]; cases flash <;> decide
    rw [if_neg hdc]
    have hbmp : ∀ c ∈ ptext, c < 65536 := by
      by_contra hn
      rw [encodeUcs2_error hn] at ho; cases ho
    rw [encodeUcs2_ok hbmp] at ho; cases ho
    rw [length_ucs2Octets] at hl
    rcases hudh with ⟨rfl, rfl, hlen⟩ | ⟨hu5, hsub, hlen⟩
    · simp only [if_true] at hl he
      simp only [maxMessageLength, show ¬ (8 = 0) by omega, if_false] at hlen
      rw [he, length_ucs2Octets, hl]; omega
    · have hne : udh ≠ [] := by rintro rfl; simp at hu5
      simp only [hne, if_false, hu5, show ¬ (8 = 0) by omega] at hl he hlen
      have : F.ud.length = 6 + 2 * ptext.length := by rw [he]; simp [hu5]; omega
      rw [this, hl]; omega

/-- C20. With extension characters the limit of 140 octets is not respected: 81 euro signs give a
"single" message whose user data are 142 octets (the other fields take 9). -/
theorem C20_violated : (@encodeSmsSubmitPdu asciiUnicode [49] (List.replicate 81 0x20AC) 0 .none none true false false).map
      (·.map (fun p => (p.data.length, p.data[8]?))) = .ok [(9 + 142, some 162)] := by
  decide +kernel

/-- C20. With still more of them a text of at most 160 characters is refused with `ValueError`. -/
theorem C20_refused : @encodeSmsSubmitPdu asciiUnicode [49] (List.replicate 128 0x20AC) 0 .none none true false false
      = .error .valueError := by
  decide +kernel

end Gsm
