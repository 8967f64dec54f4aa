import Verif.Lemmas.Deliver
/-! # Properties C23, C24, C25: decoding received PDUs -/
namespace Gsm
open Spec

/-- C23. A well-formed SMS-DELIVER without header decodes to exactly its fields: any service centre
and originator, protocol identifier, timestamp, data coding of the general group, and user data in
GSM-7, 8-bit or UCS2. The other bits of the first octet do not matter. -/
theorem C23_deliver {smsc oa : Option PyStr} {sca oaf scts ud t : List Nat} {fo pid dcs udl : Nat} {d : DateTime}
    (hs : AddrWire true smsc sca) (ho : AddrWire false oa oaf) (ht : TsWire d scts)
    (hfo : fo < 256) (hmti : fo % 4 = 0) (hudhi : fo.testBit 6 = false) (hpid : pid < 256) (hdcs : dcs < 64)
    (hudl : udl < 256) (hud : UserWire (alphabetOf dcs) udl ud t) :
    decodeSmsPduOctets (deliverOctets sca fo oaf pid dcs scts udl ud) =
      .ok ⟨smsc, (deliverOctets sca fo oaf pid dcs scts udl ud).length - sca.length, .deliver oa pid d ⟨none, t⟩⟩ := by
  obtain ⟨u1, u2⟩ := userWire_decode hud
  refine deliver_assemble hs ho ht hfo hmti hpid (by omega) hudl u1 ?_
  rw [hudhi, dcs_facts dcs hdcs, u2]

/-- C23. Data coding octets: in the general group (00xxxxxx) the alphabet is taken from bits 2 and 3; in
every other group the library assumes GSM-7, whatever the standard says. -/
theorem C23_data_coding {dcs : Nat} (h : dcs < 256) :
    decodeDataCoding dcs = if dcs < 64 then alphabetOf dcs else 0 := by
  have : ∀ n < 256, decodeDataCoding n = if n < 64 then alphabetOf n else 0 := by decide +kernel
  exact this dcs h

-- violation: 0xE0 is UCS2 (message waiting group 1110) and 0xF4 is 8-bit data (group 1111 with bit 2 set)
example : decodeDataCoding 0xE0 = 0 ∧ decodeDataCoding 0xF4 = 0 := by decide

/-- C23 (violated for the empty text): an empty GSM-7 message without header is refused with a `TypeError`,
whatever its other fields. -/
theorem C23_empty_gsm7 {smsc oa : Option PyStr} {sca oaf scts : List Nat} {fo pid dcs : Nat} {d : DateTime}
    (hs : AddrWire true smsc sca) (ho : AddrWire false oa oaf) (ht : TsWire d scts)
    (hfo : fo < 256) (hmti : fo % 4 = 0) (hudhi : fo.testBit 6 = false) (hpid : pid < 256)
    (hdcs : dcs < 256) (hgsm : decodeDataCoding dcs = 0) :
    decodeSmsPduOctets (deliverOctets sca fo oaf pid dcs scts 0 []) = .error .typeError := by
  obtain ⟨s1, s2⟩ := addrWire_decode hs
  obtain ⟨o1, o2⟩ := addrWire_decode ho
  obtain ⟨t1, t2⟩ := tsWire_decode ht
  have e : fo :: oaf ++ pid :: dcs :: scts ++ 0 :: [] = fo :: (oaf ++ (pid :: dcs :: (scts ++ [0]))) := by simp
  have hoct : ∀ x ∈ fo :: (oaf ++ (pid :: dcs :: (scts ++ [0]))), x < 256 := by
    intro x hx
    simp only [List.mem_append, List.mem_cons, List.not_mem_nil, or_false] at hx
    rcases hx with rfl | h | rfl | rfl | h | rfl
    · exact hfo
    · exact o1 x h
    · exact hpid
    · exact hdcs
    · exact t1 x h
    · omega
  have hrest : ∀ x ∈ (pid :: dcs :: (scts ++ [0])), x < 256 := fun x hx =>
    hoct x (by simp only [List.mem_cons, List.mem_append] at hx ⊢; tauto)
  have hdec : decodeUserData [] 0 0 false = .error .typeError := rfl
  unfold decodeSmsPduOctets deliverOctets
  rw [e, s2 _ hoct]
  have hb : decodeTpdu (fo :: (oaf ++ (pid :: dcs :: (scts ++ [0])))) = .error .typeError := by
    unfold decodeTpdu
    simp only [next, bind, Except.bind, pure, Except.pure, and3, hmti, udhi, if_true, o2 _ hrest, t2, hudhi, hgsm,
      hdec]
  simp only [bind, Except.bind, hb]

/-! A concrete SMS-DELIVER: from +27123, 2013-03-14 13:02:35 +02:00, "hi". -/

theorem exampleAddr : AddrWire false (some py!"+27123") [5, 0x91, 0x72, 0x21, 0xF3] :=
  .digits (toa := 0x91) (ds := py!"27123") (by decide) (by decide) (by unfold IsDigits; decide) (by decide) (by decide)

theorem exampleTs : TsWire ⟨2013, 3, 14, 13, 2, 35, 0, some (.ofSeconds 7200)⟩
    [0x31, 0x30, 0x41, 0x31, 0x20, 0x53, 0x80] :=
  .mk (neg := false) (q := 8) (by decide) (by decide) (by decide) rfl (by decide) (by decide)

theorem exampleText : UserWire 0 2 [0xE8, 0x34] py!"hi" :=
  .gsm7 (code := [0x68, 0x69]) (t := py!"hi") (by decide)
    ⟨.cons (code := [0x68]) (.inl ⟨0x68, by decide, by decide, rfl, by decide⟩)
      (.cons (code := [0x69]) (.inl ⟨0x69, by decide, by decide, rfl, by decide⟩) .nil), by decide, by decide⟩
    ⟨by decide, 2, by decide, by decide⟩

example : decodeSmsPduOctets (deliverOctets [0] 0x04 [5, 0x91, 0x72, 0x21, 0xF3] 0 0
      [0x31, 0x30, 0x41, 0x31, 0x20, 0x53, 0x80] 2 [0xE8, 0x34]) =
    .ok ⟨none, 18, .deliver (some py!"+27123") 0 ⟨2013, 3, 14, 13, 2, 35, 0, some (.ofSeconds 7200)⟩
      ⟨none, py!"hi"⟩⟩ :=
  C23_deliver .absent exampleAddr exampleTs (by decide) rfl rfl (by decide) (by decide) (by decide) exampleText

/-! ### C24 -/

theorem headerOctets_lt {es : List WireIE} (h : ∀ e ∈ es, e.iei < 256 ∧ e.data.length < 256 ∧ ∀ x ∈ e.data, x < 256) :
    ∀ x ∈ headerOctets es, x < 256 := by
  intro x hx
  simp only [headerOctets, List.mem_flatMap, WireIE.octets, List.mem_cons] at hx
  obtain ⟨e, he, rfl | rfl | hx⟩ := hx
  · exact (h e he).1
  · exact (h e he).2.1
  · exact (h e he).2.2 x hx

/-- The user data of a message with a header decodes through the text decoder on what follows. -/
theorem userData_header {es : List WireIE} {ies : List IE} (h : List.Forall₂ Means es ies) (body : List Nat)
    (udl a : Nat) :
    decodeUserData ((headerOctets es).length :: headerOctets es ++ body) udl a true =
      (decodeUserText body udl a (some (headerOctets es).length)).map (fun t => ⟨some ies, t⟩) := by
  have := C14_decode_header h body
  simp only [decodeUserData, List.cons_append, next, if_true, bind, Except.bind, this]
  cases decodeUserText body udl a (some (headerOctets es).length) <;> rfl

/-- C24. GSM-7 text after a header whose length does not end on a septet boundary: the header elements
and the text are recovered, except that a final `@` in the last septet of the last octet is lost. -/
theorem C24_gsm7_with_header {es : List WireIE} {ies : List IE} {t code body : List Nat} {udl : Nat}
    (hm : List.Forall₂ Means es ies) (hfill : fillAfter ((headerOctets es).length + 1) ≠ 0)
    (hr : Readable t code) (hp : Packed (fillAfter ((headerOctets es).length + 1)) code body)
    (hudl : udl = (((headerOctets es).length + 1) * 8 + 6) / 7 + code.length) :
    decodeUserData ((headerOctets es).length :: headerOctets es ++ body) udl 0 true =
      .ok ⟨some ies, trimAt ((fillAfter ((headerOctets es).length + 1) + 7 * code.length) % 8 = 0) t⟩ := by
  obtain ⟨he, hesc⟩ := readable_encode hr
  have h7 := encodeGsm7_lt he
  rw [userData_header hm]
  generalize (headerOctets es).length = h at *
  have hl := packed_length hp
  unfold fillAfter at *
  have hs : (h + 1) * 8 % 7 < 7 := Nat.mod_lt _ (by omega)
  have hs0 : (h + 1) * 8 % 7 ≠ 0 := by intro h0; rw [h0] at hfill; exact hfill rfl
  generalize hse : (h + 1) * 8 % 7 = s at *
  have ef : (7 - s) % 7 = 7 - s := Nat.mod_eq_of_lt (by omega)
  rw [ef] at hp hl ⊢
  match body, hp, hl with
  | [], _, hl => simp at hl; omega
  | first :: out, hp, hl =>
    simp only [List.length_cons] at hl
    obtain ⟨hlt, k, hk, e⟩ := hp
    have e2 : (bits 8 first).drop (8 - (s + 1)) ++ stream 8 out = stream 7 code ++ zeros k := by
      have := congrArg (List.drop (7 - s)) e
      rw [stream_cons, List.drop_append_of_le_length (by simp; omega), List.append_assoc,
        List.drop_left' (by simp [zeros])] at this
      rwa [show 8 - (s + 1) = 7 - s by omega]
    have hk0 : k = 0 ↔ (7 - s + 7 * code.length) % 8 = 0 := by
      have := congrArg List.length e
      simp [zeros] at this; omega
    have hu := C05_unpack_exact_prev (it := out) (n := udl) (p := first) (s := s + 1) (by omega) (by omega)
      (by omega) (hlt first (by simp)) (fun o ho => hlt o (by simp [ho]))
    rw [List.take_of_length_le (by omega), e2, readSeptets_packed h7 hk] at hu
    simp only [hk0] at hu
    simp only [decodeUserText, next, if_true, bind, Except.bind, hse, hu, decode_trim he hesc, Except.map]

/-- C24 (violated when the header, with its length octet, is a multiple of 7 octets, as with a 16-bit
concatenation reference): the first septet of the text is skipped. -/
theorem C24_gsm7_first_lost {es : List WireIE} {ies : List IE} {t t' code body : List Nat} {udl : Nat}
    (hm : List.Forall₂ Means es ies) (hfill : fillAfter ((headerOctets es).length + 1) = 0)
    (hr : Readable t code) (hp : Packed 0 code body) (hlost : FirstSeptetLost t t')
    (hudl : udl = ((headerOctets es).length + 1) * 8 / 7 + code.length) :
    decodeUserData ((headerOctets es).length :: headerOctets es ++ body) udl 0 true =
      .ok ⟨some ies, trimAt (code.length % 8 = 0) t'⟩ := by
  -- the remaining septets encode `t'`
  have key : ∃ s0 code', code = s0 :: code' ∧ encodeGsm7 t' = .ok code' ∧ 27 ∉ t' := by
    obtain ⟨hrt, h1, h2⟩ := hr
    cases hlost with
    | @basic c t s hs hne hc =>
      cases hrt with
      | @cons _ _ o codes ho hrest =>
        simp only [List.mem_cons, not_or] at h1 h2
        obtain ⟨e1, e2⟩ := readable_encode ⟨hrest, h1.2, h2.2⟩
        rcases ho with ⟨s', hs', hne', rfl, hc'⟩ | ⟨s', hs', rfl, hc'⟩
        · exact ⟨s', codes, rfl, e1, e2⟩
        · exfalso
          have : ∀ s < 128, ∀ s' < 128, s ≠ 0x1B → gsmExtChar s' ≠ none → gsmChar s ≠ gsmExtChar s' := by
            decide +kernel
          exact this s hs s' hs' hne (by simp [hc']) (by rw [hc, hc'])
    | @ext c d t s hs hx hd =>
      cases hrt with
      | @cons _ _ o codes ho hrest =>
        simp only [List.mem_cons, not_or] at h1 h2
        obtain ⟨e1, e2⟩ := readable_encode ⟨hrest, h1.2, h2.2⟩
        rcases ho with ⟨s', hs', hne', rfl, hc'⟩ | ⟨s', hs', rfl, hc'⟩
        · exfalso
          have : ∀ s < 128, ∀ s' < 128, s ≠ 0x1B → gsmExtChar s' ≠ none → gsmChar s ≠ gsmExtChar s' := by
            decide +kernel
          exact this s' hs' s hs hne' (by simp [hx]) (by rw [hx, hc'])
        · have inj : ∀ s < 128, ∀ s' < 128, gsmExtChar s' ≠ none → gsmExtChar s = gsmExtChar s' → s = s' := by
            decide +kernel
          have hss := inj s hs s' hs' (by simp [hc']) (by rw [hx, hc'])
          subst hss
          have hd2 : s ≠ 0x1B ∧ d ≠ 0xA7 ∧ d ≠ 0x0C := by
            have : ∀ s < 128, gsmExtChar s ≠ none → s ≠ 0x1B ∧ gsmChar s ≠ some 0xA7 ∧ gsmChar s ≠ some 0x0C := by
              decide +kernel
            obtain ⟨a, b, c⟩ := this s hs (by simp [hx])
            rw [hd] at b c
            exact ⟨a, by simpa using b, by simpa using c⟩
          obtain ⟨d1, d2⟩ := reads_encode (.inl ⟨s, hs, hd2.1, rfl, hd⟩) hd2.2.1 hd2.2.2
          refine ⟨0x1B, s :: codes, rfl, ?_, ?_⟩
          · simp [encodeGsm7, d1, e1, bind, Except.bind, pure, Except.pure]
          · simp [e2, Ne.symm d2]
  obtain ⟨s0, code', rfl, he, hesc⟩ := key
  have h7 := encodeGsm7_lt he
  rw [userData_header hm]
  generalize (headerOctets es).length = h at *
  have hl := packed_length hp
  have hs0 : (h + 1) * 8 % 7 = 0 := by unfold fillAfter at hfill; omega
  simp only [List.length_cons] at hl hudl ⊢
  match body, hp, hl with
  | [], _, hl => simp at hl; omega
  | first :: out, hp, hl =>
    simp only [List.length_cons] at hl
    obtain ⟨hlt, k, hk, e⟩ := hp
    have e2 : (bits 8 first).drop (8 - 1) ++ stream 8 out = stream 7 code' ++ zeros k := by
      have := congrArg (List.drop 7) e
      rw [stream_cons, List.drop_append_of_le_length (by simp), stream_cons, List.append_assoc, List.append_assoc] at this
      simp only [zeros, List.replicate_zero, List.nil_append] at this
      rwa [List.drop_left' (by simp)] at this
    have hk0 : k = 0 ↔ (code'.length + 1) % 8 = 0 := by
      have := congrArg List.length e
      simp [zeros] at this; omega
    have hu := C05_unpack_exact_prev (it := out) (n := udl) (p := first) (s := 1) (by omega) (by omega)
      (by omega) (hlt first (by simp)) (fun o ho => hlt o (by simp [ho]))
    rw [List.take_of_length_le (by omega), e2, readSeptets_packed h7 hk] at hu
    simp only [hk0] at hu
    simp only [decodeUserText, next, if_true, bind, Except.bind, hs0, Nat.zero_add, hu, decode_trim he hesc, Except.map]

/-- C24. UCS2 text (and 8-bit data) after a header of any length is recovered in full. -/
theorem C24_ucs2_with_header {es : List WireIE} {ies : List IE} {t : List Nat} {udl : Nat}
    (hm : List.Forall₂ Means es ies) (ht : ∀ c ∈ t, c < 65536)
    (hudl : udl = (headerOctets es).length + 1 + 2 * t.length) :
    decodeUserData ((headerOctets es).length :: headerOctets es ++ ucs2Wire t) udl 2 true = .ok ⟨some ies, t⟩ := by
  rw [userData_header hm, ucs2Wire_eq]
  simp [decodeUserText, decodeUcs2_all ht (show 2 * t.length ≤ udl by omega), Except.map]

theorem C24_data_with_header {es : List WireIE} {ies : List IE} (hm : List.Forall₂ Means es ies)
    (bytes : List Nat) (udl : Nat) :
    decodeUserData ((headerOctets es).length :: headerOctets es ++ bytes) udl 1 true = .ok ⟨some ies, bytes⟩ := by
  rw [userData_header hm]
  simp [decodeUserText, Except.map]

/-- C24. A whole SMS-DELIVER with a header decodes to its fields and what its user data decodes to. -/
theorem C24_deliver {smsc oa : Option PyStr} {sca oaf scts ud : List Nat} {fo pid dcs udl : Nat} {d : DateTime}
    {u : UserData}
    (hs : AddrWire true smsc sca) (ho : AddrWire false oa oaf) (ht : TsWire d scts)
    (hfo : fo < 256) (hmti : fo % 4 = 0) (hudhi : fo.testBit 6 = true) (hpid : pid < 256) (hdcs : dcs < 64)
    (hudl : udl < 256) (hud : ∀ x ∈ ud, x < 256) (hdec : decodeUserData ud udl (alphabetOf dcs) true = .ok u) :
    decodeSmsPduOctets (deliverOctets sca fo oaf pid dcs scts udl ud) =
      .ok ⟨smsc, (deliverOctets sca fo oaf pid dcs scts udl ud).length - sca.length, .deliver oa pid d u⟩ := by
  refine deliver_assemble hs ho ht hfo hmti hpid (by omega) hudl hud ?_
  rw [hudhi, dcs_facts dcs hdcs, hdec]

-- 8-bit concatenation (5 octets of header): "hi" is read in full
example : decodeUserData [5, 0, 3, 42, 2, 1, 0xD0, 0x69] 9 0 true =
    .ok ⟨some [⟨0, 3, [42, 2, 1], .concatenation 42 2 1⟩], py!"hi"⟩ := by decide
-- 16-bit concatenation (6 octets of header): "hi" is read as "i", and "{i" as "(i"
example : decodeUserData [6, 8, 4, 1, 42, 2, 1, 0xE8, 0x34] 10 0 true =
    .ok ⟨some [⟨8, 4, [1, 42, 2, 1], .concatenation 298 2 1⟩], py!"i"⟩ := by decide
example : FirstSeptetLost py!"{i" py!"(i" := .ext (s := 0x28) (by decide) (by decide) (by decide)
example : FirstSeptetLost py!"hi" py!"i" := .basic (s := 0x68) (by decide) (by decide) (by decide)
example : fillAfter 6 = 1 ∧ fillAfter 7 = 0 := by decide

/-! ### C25 -/

/-- C25. A well-formed SMS-STATUS-REPORT decodes to its reference, recipient, timestamps and status,
whatever the other bits of the first octet and whatever optional octets follow. -/
theorem C25_status_report {smsc ra : Option PyStr} {sca raf scts dts rest : List Nat} {fo mr st : Nat}
    {d1 d2 : DateTime} (hs : AddrWire true smsc sca) (hr : AddrWire false ra raf) (ht : TsWire d1 scts)
    (hd : TsWire d2 dts) (hfo : fo < 256) (hmti : fo % 4 = 2) (hmr : mr < 256) (hst : st < 256)
    (hrest : ∀ x ∈ rest, x < 256) :
    decodeSmsPduOctets (statusReportOctets sca fo mr raf scts dts st rest) =
      .ok ⟨smsc, (statusReportOctets sca fo mr raf scts dts st rest).length - sca.length,
        .statusReport mr ra d1 d2 st⟩ := by
  obtain ⟨s1, s2⟩ := addrWire_decode hs
  obtain ⟨o1, o2⟩ := addrWire_decode hr
  obtain ⟨t1, t2⟩ := tsWire_decode ht
  obtain ⟨u1, u2⟩ := tsWire_decode hd
  have e : fo :: mr :: raf ++ scts ++ dts ++ st :: rest = fo :: mr :: (raf ++ (scts ++ (dts ++ (st :: rest)))) := by
    simp
  have hoct : ∀ x ∈ fo :: mr :: (raf ++ (scts ++ (dts ++ (st :: rest)))), x < 256 := by
    intro x hx
    simp only [List.mem_append, List.mem_cons] at hx
    rcases hx with rfl | rfl | h | h | h | rfl | h
    · exact hfo
    · exact hmr
    · exact o1 x h
    · exact t1 x h
    · exact u1 x h
    · exact hst
    · exact hrest x h
  have hr2 : ∀ x ∈ (scts ++ (dts ++ (st :: rest))), x < 256 := fun x hx =>
    hoct x (by simp only [List.mem_cons, List.mem_append] at hx ⊢; tauto)
  unfold decodeSmsPduOctets statusReportOctets
  rw [e, s2 _ hoct]
  have hb : decodeTpdu (fo :: mr :: (raf ++ (scts ++ (dts ++ (st :: rest))))) = .ok (.statusReport mr ra d1 d2 st) := by
    unfold decodeTpdu
    simp only [next, bind, Except.bind, pure, Except.pure, and3, hmti, o2 _ hr2, t2, u2, show ¬ (2 = 0) by omega,
      show ¬ (2 = 1) by omega, if_true, if_false]
  simp only [bind, Except.bind, hb, pure, Except.pure]

example : decodeSmsPduOctets (statusReportOctets [0] 0x06 7 [5, 0x91, 0x72, 0x21, 0xF3]
      [0x31, 0x30, 0x41, 0x31, 0x20, 0x53, 0x80] [0x31, 0x30, 0x41, 0x31, 0x20, 0x53, 0x80] 0 []) =
    .ok ⟨none, 22, .statusReport 7 (some py!"+27123") ⟨2013, 3, 14, 13, 2, 35, 0, some (.ofSeconds 7200)⟩
      ⟨2013, 3, 14, 13, 2, 35, 0, some (.ofSeconds 7200)⟩ 0⟩ :=
  C25_status_report .absent exampleAddr exampleTs exampleTs (by decide) rfl (by decide) (by decide) (by simp)

end Gsm
