import Verif.Lemmas.CutPdu
import Verif.Props.Deliver
import Verif.Spec.Hex
/-! # Property C88: PDUs that are cut off or go on after their end -/
namespace Gsm
open Spec

/-- C88. For every PDU and every continuation of it: if both decode, they agree in every field (message
type, service centre, number, identifiers, times, header), and the text of the shorter one is the
beginning of the text of the longer one. So losing the end of a PDU never changes what is read from the
part that is left. -/
theorem C88_continued {p j : List Nat} {r r' : DecodedSms} (h : decodeSmsPduOctets p = .ok r)
    (h' : decodeSmsPduOctets (p ++ j) = .ok r') : ContinuedBy j.length r r' := by
  obtain ⟨k, rest, -, -, hb, -, hj⟩ := pdu_head h
  rw [hj] at h'
  cases hx : decodeTpdu (rest ++ j) with
  | error e => rw [hx] at h'; cases h'
  | ok b' =>
    rw [hx] at h'
    cases h'
    refine ⟨rfl, rfl, ?_⟩
    generalize r.body = b at hb
    show SameUpToText b b'
    cases tpdu_head hb with
    | report hr => rw [hr] at hx; cases hx; exact .report
    | @deliver number pid time rest n dc up ud hs h1 h2 =>
      rw [h2] at hx
      cases hy : decodeUserData (rest ++ j) n dc up with
      | error e => rw [hy] at hx; cases hx
      | ok ud' =>
        rw [hy] at hx; cases hx
        obtain ⟨u, rfl⟩ := userData_prefix h1 hy
        exact .deliver
    | @submit mr number pid vp rest n dc up ud hs h1 h2 =>
      rw [h2] at hx
      cases hy : decodeUserData (rest ++ j) n dc up with
      | error e => rw [hy] at hx; cases hx
      | ok ud' =>
        rw [hy] at hx; cases hx
        obtain ⟨u, rfl⟩ := userData_prefix h1 hy
        exact .submit

/-- C88. A status report is not changed by anything behind it. -/
theorem C88_report {p : List Nat} {r : DecodedSms} (h : decodeSmsPduOctets p = .ok r) (hr : IsReport r.body)
    (j : List Nat) : decodeSmsPduOctets (p ++ j) = .ok { r with tpduLength := r.tpduLength + (j.length : Nat) } := by
  obtain ⟨k, rest, -, -, hb, -, hj⟩ := pdu_head h
  rw [hj]
  obtain ⟨smsc, len, b⟩ := r
  cases tpdu_head hb with
  | report h2 => rw [h2]; rfl
  | deliver _ _ _ => exact absurd hr id
  | submit _ _ _ => exact absurd hr id

/-- C88. More octets behind a message that decodes can only make its text undecodable, which shows as
`StopIteration` (an escape at the end) or `TypeError` (a text declared empty). -/
theorem C88_spoiled {p j : List Nat} {r : DecodedSms} {e : PyErr} (ho : ∀ x ∈ p ++ j, x < 256)
    (h : decodeSmsPduOctets p = .ok r) (h' : decodeSmsPduOctets (p ++ j) = .error e) :
    e = .stopIteration ∨ e = .typeError := by
  obtain ⟨k, rest, ha, -, hb, -, hj⟩ := pdu_head h
  rw [hj] at h'
  have hrest : ∃ pre, p = pre ++ rest := address_suffix ha
  obtain ⟨pre, rfl⟩ := hrest
  have ho' : ∀ x ∈ rest ++ j, x < 256 := fun x hx => ho x (by rw [List.append_assoc]; exact List.mem_append_right _ hx)
  generalize hbb : r.body = b at hb
  cases hx : decodeTpdu (rest ++ j) with
  | ok b' => rw [hx] at h'; cases h'
  | error e' =>
    rw [hx] at h'; cases h'
    cases tpdu_head hb with
    | report hr => rw [hr] at hx; cases hx
    | @deliver number pid time rest2 n dc up ud hs h1 h2 =>
      rw [h2] at hx
      obtain ⟨pre2, rfl⟩ := hs
      cases hy : decodeUserData (rest2 ++ j) n dc up with
      | ok ud' => rw [hy] at hx; cases hx
      | error e2 =>
        rw [hy] at hx; cases hx
        exact (userData_error (fun x hx => ho' x (by rw [List.append_assoc]; exact List.mem_append_right _ hx)) h1 hy).2
    | @submit mr number pid vp rest2 n dc up ud hs h1 h2 =>
      rw [h2] at hx
      obtain ⟨pre2, rfl⟩ := hs
      cases hy : decodeUserData (rest2 ++ j) n dc up with
      | ok ud' => rw [hy] at hx; cases hx
      | error e2 =>
        rw [hy] at hx; cases hx
        exact (userData_error (fun x hx => ho' x (by rw [List.append_assoc]; exact List.mem_append_right _ hx)) h1 hy).2

/-! ### Cut inside the fixed fields -/

theorem cut_deliver {smsc oa : Option PyStr} {sca oaf scts ud p j : List Nat} {fo pid dcs udl : Nat} {d : DateTime}
    {r : DecodedSms} (hs : AddrWire true smsc sca) (ho : AddrWire false oa oaf) (ht : TsWire d scts)
    (hfo : fo < 256) (hmti : fo % 4 = 0) (hpid : pid < 256) (hdcs : dcs < 256) (hudl : udl < 256)
    (hud : ∀ x ∈ ud, x < 256) (hp : p ++ j = deliverOctets sca fo oaf pid dcs scts udl ud)
    (h : decodeSmsPduOctets p = .ok r) :
    ∃ ud', p = deliverOctets sca fo oaf pid dcs scts udl ud' ∧ ud = ud' ++ j ∧ ∃ u,
      decodeUserData ud' udl (decodeDataCoding dcs) (fo.testBit 6) = .ok u ∧ r.smsc = smsc ∧
      r.body = .deliver oa pid d u := by
  obtain ⟨s1, s2⟩ := addrWire_decode hs
  obtain ⟨o1, o2⟩ := addrWire_decode ho
  obtain ⟨t1, t2⟩ := tsWire_decode ht
  have e : fo :: oaf ++ pid :: dcs :: scts ++ udl :: ud = fo :: (oaf ++ (pid :: dcs :: (scts ++ (udl :: ud)))) := by simp
  unfold deliverOctets at hp
  rw [e] at hp
  have l2 : ∀ x ∈ (pid :: dcs :: (scts ++ (udl :: ud))), x < 256 := by
    intro x hx
    simp only [List.mem_append, List.mem_cons] at hx
    rcases hx with rfl | rfl | h | rfl | h
    · exact hpid
    · exact hdcs
    · exact t1 x h
    · exact hudl
    · exact hud x h
  have l1 : ∀ x ∈ fo :: (oaf ++ (pid :: dcs :: (scts ++ (udl :: ud)))), x < 256 := by
    intro x hx
    rcases List.mem_cons.1 hx with rfl | hx
    · exact hfo
    · rcases List.mem_append.1 hx with hx | hx
      · exact o1 x hx
      · exact l2 x hx
  obtain ⟨k, rest, ha, hne, hb, -, -⟩ := pdu_head h
  obtain ⟨hsm, rfl, hr⟩ := peel (steady_address true) hp (s2 _ l1) ha hne
  obtain ⟨fo', r0, rfl⟩ := tpdu_cons hb
  rw [List.cons_append] at hr
  obtain ⟨rfl, hr0⟩ := List.cons.inj hr
  rw [tpdu_deliver r0 fo' (by rw [and3]; exact hmti)] at hb
  obtain ⟨⟨⟨number, k⟩, r1⟩, e1, hb⟩ := readerBind_ok hb
  obtain ⟨⟨pid', r2⟩, e2, hb⟩ := readerBind_ok hb
  obtain ⟨⟨dcs', r3⟩, e3, hb⟩ := readerBind_ok hb
  obtain ⟨⟨time, r4⟩, e4, hb⟩ := readerBind_ok hb
  obtain ⟨⟨n, r5⟩, e5, hb⟩ := readerBind_ok hb
  obtain ⟨u, e6, hbu⟩ := readerBind_ok hb
  have hbody : r.body = .deliver number pid' time u := (Except.ok.inj hbu).symm
  clear hbu hb
  obtain rfl := nonempty_of_next e2
  obtain rfl := nonempty_of_next e3
  obtain rfl := nonempty_of_next e5
  obtain ⟨hnum, rfl, hr1⟩ := peel (steady_address false) hr0 (o2 _ l2) e1 (by simp)
  simp only [List.cons_append, List.cons.injEq] at hr1
  obtain ⟨rfl, rfl, hr2⟩ := hr1
  obtain ⟨rfl, rfl, hr3⟩ := peel steady_timestamp hr2 (t2 _) e4 (by simp)
  simp only [List.cons_append, List.cons.injEq] at hr3
  obtain ⟨rfl, hr4⟩ := hr3
  refine ⟨r5, by simp [deliverOctets], hr4.symm, u, by rw [← udhi]; exact e6, (Prod.mk.inj hsm).1, ?_⟩
  have := (Prod.mk.inj hnum).1
  rw [hbody, ← this]

/-- C88. An SMS-DELIVER of which anything but its user data is missing never decodes: what decodes has every
field, with its right value, and only octets of the user data are missing. Any user data and any data
coding, header or not. -/
theorem C88_cut_deliver {smsc oa : Option PyStr} {sca oaf scts ud p j : List Nat} {fo pid dcs udl : Nat} {d : DateTime}
    {r : DecodedSms} (hs : AddrWire true smsc sca) (ho : AddrWire false oa oaf) (ht : TsWire d scts)
    (hfo : fo < 256) (hmti : fo % 4 = 0) (hpid : pid < 256) (hdcs : dcs < 256) (hudl : udl < 256)
    (hud : ∀ x ∈ ud, x < 256) (hp : p ++ j = deliverOctets sca fo oaf pid dcs scts udl ud)
    (h : decodeSmsPduOctets p = .ok r) :
    (∃ ud', p = deliverOctets sca fo oaf pid dcs scts udl ud' ∧ ud = ud' ++ j) ∧ r.smsc = smsc ∧
      ∃ u, r.body = .deliver oa pid d u := by
  obtain ⟨ud', h1, h2, u, -, h3, h4⟩ := cut_deliver hs ho ht hfo hmti hpid hdcs hudl hud hp h
  exact ⟨⟨ud', h1, h2⟩, h3, u, h4⟩

/-- C88. Nor does one of which a part of the user data header is missing. -/
theorem C88_cut_header {smsc oa : Option PyStr} {sca oaf scts body p j : List Nat} {fo pid dcs udl : Nat}
    {d : DateTime} {r : DecodedSms} {es : List WireIE} {ies : List IE}
    (hs : AddrWire true smsc sca) (ho : AddrWire false oa oaf) (ht : TsWire d scts)
    (hfo : fo < 256) (hmti : fo % 4 = 0) (hudhi : fo.testBit 6 = true) (hpid : pid < 256) (hdcs : dcs < 256)
    (hudl : udl < 256) (hm : List.Forall₂ Means es ies)
    (hud : ∀ x ∈ (headerOctets es).length :: headerOctets es ++ body, x < 256)
    (hp : p ++ j = deliverOctets sca fo oaf pid dcs scts udl ((headerOctets es).length :: headerOctets es ++ body))
    (h : decodeSmsPduOctets p = .ok r) :
    ∃ body', p = deliverOctets sca fo oaf pid dcs scts udl ((headerOctets es).length :: headerOctets es ++ body') ∧
      body = body' ++ j := by
  obtain ⟨ud', rfl, hu, u, hd, -, -⟩ := cut_deliver hs ho ht hfo hmti hpid hdcs hudl hud hp h
  rw [hudhi] at hd
  match ud', hd, hu with
  | [], hd, _ => cases hd
  | k :: it, hd, hu =>
    rw [List.cons_append, List.cons_append] at hu
    obtain ⟨rfl, hu2⟩ := List.cons.inj hu
    simp only [decodeUserData, if_true, next, ok_bind] at hd
    obtain ⟨⟨ies', rest⟩, hl, hd⟩ := readerBind_ok hd
    have hf := firm_udh _ _ _ _ _ _ j hl
    rw [← hu2, C14_decode_header hm] at hf
    simp only [Except.ok.injEq, Prod.mk.injEq] at hf
    refine ⟨rest, ?_, hf.2⟩
    rw [hf.2, ← List.append_assoc] at hu2
    rw [← List.append_cancel_right hu2, List.cons_append]

/-- C88. A text that is cut off decodes to the beginning of the text: an SMS-DELIVER without header that
lost its end either fails or gives its own fields and a beginning of its own text. -/
theorem C88_cut_text {smsc oa : Option PyStr} {sca oaf scts ud t p j : List Nat} {fo pid dcs udl : Nat} {d : DateTime}
    {r : DecodedSms} (hs : AddrWire true smsc sca) (ho : AddrWire false oa oaf) (ht : TsWire d scts)
    (hfo : fo < 256) (hmti : fo % 4 = 0) (hudhi : fo.testBit 6 = false) (hpid : pid < 256) (hdcs : dcs < 64)
    (hudl : udl < 256) (hud : UserWire (alphabetOf dcs) udl ud t)
    (hp : p ++ j = deliverOctets sca fo oaf pid dcs scts udl ud) (h : decodeSmsPduOctets p = .ok r) :
    ∃ t' u, t = t' ++ u ∧ r = ⟨smsc, (p.length : Int) - sca.length, .deliver oa pid d ⟨none, t'⟩⟩ := by
  have hfull := C23_deliver hs ho ht hfo hmti hudhi hpid hdcs hudl hud
  rw [← hp] at hfull
  obtain ⟨h1, h2, h3⟩ := C88_continued h hfull
  obtain ⟨rs, rl, rb⟩ := r
  dsimp only at h1 h2 h3
  cases h3 with
  | deliver =>
    rename_i t' u
    refine ⟨t', u, rfl, ?_⟩
    simp only [List.length_append] at h2
    simp only [DecodedSms.mk.injEq, and_true]
    exact ⟨h1.symm, by omega⟩

/-- C88. A status report without its status, or anything before it, never decodes. -/
theorem C88_cut_report {smsc ra : Option PyStr} {sca raf scts dts rest p j : List Nat} {fo mr st : Nat}
    {d1 d2 : DateTime} {r : DecodedSms} (hs : AddrWire true smsc sca) (hr : AddrWire false ra raf)
    (ht : TsWire d1 scts) (hd : TsWire d2 dts) (hfo : fo < 256) (hmti : fo % 4 = 2) (hmr : mr < 256) (hst : st < 256)
    (hrest : ∀ x ∈ rest, x < 256) (hp : p ++ j = statusReportOctets sca fo mr raf scts dts st rest)
    (h : decodeSmsPduOctets p = .ok r) :
    (∃ rest', p = statusReportOctets sca fo mr raf scts dts st rest' ∧ rest = rest' ++ j) ∧
      r = ⟨smsc, (p.length : Int) - sca.length, .statusReport mr ra d1 d2 st⟩ := by
  have hfull := C25_status_report hs hr ht hd hfo hmti hmr hst hrest
  rw [← hp] at hfull
  have hc := C88_continued h hfull
  refine ⟨?_, ?_⟩
  rotate_left
  · obtain ⟨h1, h2, h3⟩ := hc
    obtain ⟨rs, rl, rb⟩ := r
    dsimp only at h1 h2 h3
    cases h3 with
    | report =>
      simp only [List.length_append] at h2
      simp only [DecodedSms.mk.injEq, and_true]
      exact ⟨h1.symm, by omega⟩
  · obtain ⟨s1, s2⟩ := addrWire_decode hs
    obtain ⟨o1, o2⟩ := addrWire_decode hr
    obtain ⟨t1, t2⟩ := tsWire_decode ht
    obtain ⟨u1, u2⟩ := tsWire_decode hd
    have e : fo :: mr :: raf ++ scts ++ dts ++ st :: rest = fo :: mr :: (raf ++ (scts ++ (dts ++ (st :: rest)))) := by
      simp
    unfold statusReportOctets at hp
    rw [e] at hp
    have l2 : ∀ x ∈ scts ++ (dts ++ (st :: rest)), x < 256 := by
      intro x hx
      simp only [List.mem_append, List.mem_cons] at hx
      rcases hx with h | h | rfl | h
      · exact t1 x h
      · exact u1 x h
      · exact hst
      · exact hrest x h
    have l1 : ∀ x ∈ fo :: mr :: (raf ++ (scts ++ (dts ++ (st :: rest)))), x < 256 := by
      intro x hx
      rcases List.mem_cons.1 hx with rfl | hx
      · exact hfo
      · rcases List.mem_cons.1 hx with rfl | hx
        · exact hmr
        · rcases List.mem_append.1 hx with hx | hx
          · exact o1 x hx
          · exact l2 x hx
    obtain ⟨k, rest0, ha, hne, hb, -, -⟩ := pdu_head h
    obtain ⟨-, rfl, hr⟩ := peel (steady_address true) hp (s2 _ l1) ha hne
    obtain ⟨fo', r0, rfl⟩ := tpdu_cons hb
    rw [List.cons_append] at hr
    obtain ⟨rfl, hr0⟩ := List.cons.inj hr
    rw [tpdu_report r0 fo' (by rw [and3]; exact hmti)] at hb
    obtain ⟨⟨mr', r0⟩, e0, hb⟩ := readerBind_ok hb
    obtain ⟨⟨⟨number, k⟩, r1⟩, e1, hb⟩ := readerBind_ok hb
    obtain ⟨⟨time, r2⟩, e2, hb⟩ := readerBind_ok hb
    obtain ⟨⟨dis, r3⟩, e3, hb⟩ := readerBind_ok hb
    obtain ⟨⟨st', r4⟩, e4, hb⟩ := readerBind_ok hb
    obtain rfl := nonempty_of_next e0
    obtain rfl := nonempty_of_next e4
    have n2 : r2 ≠ [] := by rintro rfl; cases timestamp_nil e3
    have n1 : r1 ≠ [] := by rintro rfl; exact n2 (timestamp_nil e2)
    rw [List.cons_append] at hr0
    obtain ⟨rfl, hr1⟩ := List.cons.inj hr0
    obtain ⟨-, rfl, hr2⟩ := peel (steady_address false) hr1 (o2 _ l2) e1 n1
    obtain ⟨-, rfl, hr3⟩ := peel steady_timestamp hr2 (t2 _) e2 n2
    obtain ⟨-, rfl, hr4⟩ := peel steady_timestamp hr3 (u2 _) e3 (by simp)
    rw [List.cons_append] at hr4
    obtain ⟨rfl, hr5⟩ := List.cons.inj hr4
    exact ⟨r4, by simp [statusReportOctets], hr5.symm⟩

/-! ### Octets after the end -/

theorem deliver_after {smsc oa : Option PyStr} {sca oaf scts ud t : List Nat} {fo pid dcs udl : Nat} {d : DateTime}
    (hs : AddrWire true smsc sca) (ho : AddrWire false oa oaf) (ht : TsWire d scts)
    (hfo : fo < 256) (hmti : fo % 4 = 0) (hudhi : fo.testBit 6 = false) (hpid : pid < 256) (hdcs : dcs < 64)
    (hudl : udl < 256) (hud : ∀ x ∈ ud, x < 256)
    (hdec : decodeUserData ud udl (alphabetOf dcs) false = .ok ⟨none, t⟩) :
    decodeSmsPduOctets (deliverOctets sca fo oaf pid dcs scts udl ud) =
      .ok ⟨smsc, (deliverOctets sca fo oaf pid dcs scts udl ud).length - sca.length, .deliver oa pid d ⟨none, t⟩⟩ := by
  refine deliver_assemble hs ho ht hfo hmti hpid (by omega) hudl hud ?_
  rw [hudhi, dcs_facts dcs hdcs, hdec]

theorem decodeUcs2_after (j : List Nat) : ∀ t : List Nat, (∀ c ∈ t, c < 65536) →
    (decodeUcs2 (ucs2Wire t ++ j) (2 * t.length)).1 = t
  | [], _ => by rw [show 2 * ([] : List Nat).length = 0 from rfl, decodeUcs2]
  | c :: t, h => by
    have hc := h c (by simp)
    have ih := decodeUcs2_after j t (fun x hx => h x (by simp [hx]))
    have e : (c / 256) <<< 8 ||| c % 256 = c := by
      rw [← Nat.shiftLeft_add_eq_or_of_lt (by omega), Nat.shiftLeft_eq]; omega
    rw [show 2 * (c :: t).length = (2 * t.length + 1) + 1 by simp; omega]
    show (decodeUcs2 ((c / 256) :: (c % 256) :: (ucs2Wire t ++ j)) _).1 = _
    rw [decodeUcs2]
    simp only [e]
    rw [show 2 * t.length + 1 + 1 - 2 = 2 * t.length by omega, ih]

/-- C88. UCS2: the declared length is respected, and octets after the text do not matter. -/
theorem C88_after_ucs2 {smsc oa : Option PyStr} {sca oaf scts t j : List Nat} {fo pid dcs : Nat} {d : DateTime}
    (hs : AddrWire true smsc sca) (ho : AddrWire false oa oaf) (ht : TsWire d scts)
    (hfo : fo < 256) (hmti : fo % 4 = 0) (hudhi : fo.testBit 6 = false) (hpid : pid < 256) (hdcs : dcs < 64)
    (ha : alphabetOf dcs = 2) (hl : 2 * t.length < 256) (htx : ∀ c ∈ t, c < 65536) (hj : ∀ x ∈ j, x < 256) :
    decodeSmsPduOctets (deliverOctets sca fo oaf pid dcs scts (2 * t.length) (ucs2Wire t ++ j)) =
      .ok ⟨smsc, (deliverOctets sca fo oaf pid dcs scts (2 * t.length) (ucs2Wire t ++ j)).length - sca.length,
        .deliver oa pid d ⟨none, t⟩⟩ := by
  refine deliver_after hs ho ht hfo hmti hudhi hpid hdcs hl ?_ ?_
  · intro x hx
    rcases List.mem_append.1 hx with hx | hx
    · exact (userWire_decode (.ucs2 htx)).1 x hx
    · exact hj x hx
  · rw [ha]
    simp only [decodeUserData, decodeUserText, Bool.false_eq_true, if_false, if_true, bind, Except.bind, pure, Except.pure,
      decodeUcs2_after j t htx, OfNat.ofNat_ne_zero]

/-- C88 (violated for 8-bit data): the declared length is ignored, and every octet after the data becomes
part of the text. -/
theorem C88_after_data {smsc oa : Option PyStr} {sca oaf scts bytes j : List Nat} {fo pid dcs udl : Nat} {d : DateTime}
    (hs : AddrWire true smsc sca) (ho : AddrWire false oa oaf) (ht : TsWire d scts)
    (hfo : fo < 256) (hmti : fo % 4 = 0) (hudhi : fo.testBit 6 = false) (hpid : pid < 256) (hdcs : dcs < 64)
    (ha : alphabetOf dcs = 1) (hl : udl < 256) (hb : ∀ x ∈ bytes, x < 256) (hj : ∀ x ∈ j, x < 256) :
    decodeSmsPduOctets (deliverOctets sca fo oaf pid dcs scts udl (bytes ++ j)) =
      .ok ⟨smsc, (deliverOctets sca fo oaf pid dcs scts udl (bytes ++ j)).length - sca.length,
        .deliver oa pid d ⟨none, bytes ++ j⟩⟩ := by
  refine deliver_after hs ho ht hfo hmti hudhi hpid hdcs hl ?_ ?_
  · intro x hx
    rcases List.mem_append.1 hx with hx | hx
    · exact hb x hx
    · exact hj x hx
  · rw [ha]; rfl

/-- C88. GSM-7, texts of at most seven septets: octets after the text do not matter. -/
theorem C88_after_short {smsc oa : Option PyStr} {sca oaf scts t code ud j : List Nat} {fo pid dcs : Nat} {d : DateTime}
    (hs : AddrWire true smsc sca) (ho : AddrWire false oa oaf) (ht : TsWire d scts)
    (hfo : fo < 256) (hmti : fo % 4 = 0) (hudhi : fo.testBit 6 = false) (hpid : pid < 256) (hdcs : dcs < 64)
    (ha : alphabetOf dcs = 0) (hne : t ≠ []) (hr : Readable t code) (hp : Packed 0 code ud) (hl : code.length ≤ 7)
    (hj : ∀ x ∈ j, x < 256) :
    decodeSmsPduOctets (deliverOctets sca fo oaf pid dcs scts code.length (ud ++ j)) =
      .ok ⟨smsc, (deliverOctets sca fo oaf pid dcs scts code.length (ud ++ j)).length - sca.length,
        .deliver oa pid d ⟨none, t⟩⟩ := by
  obtain ⟨he, hesc⟩ := readable_encode hr
  have h7 := encodeGsm7_lt he
  have hcp := List.length_pos_iff.2 (encodeGsm7_ne_nil he hne)
  have hlen := packed_length hp
  have hlu : ud.length = code.length := by omega
  have hlt : ∀ x ∈ ud ++ j, x < 256 := by
    intro x hx
    rcases List.mem_append.1 hx with hx | hx
    · exact hp.1 x hx
    · exact hj x hx
  refine deliver_after hs ho ht hfo hmti hudhi hpid hdcs (by omega) hlt ?_
  rw [ha]
  have hu := C05_unpack_exact (it := ud ++ j) (n := code.length) (by omega)
    (by intro h; have h := congrArg List.length h; rw [List.length_append] at h; simp only [List.length_nil] at h; omega) hlt
  rw [List.take_left' hlu, List.drop_left' hlu, packed_read hp h7, if_neg (by omega)] at hu
  have hd := decode_trim he hesc False
  rw [if_neg (fun h => h.1), show trimAt False t = t by simp [trimAt]] at hd
  simp only [decodeUserData, decodeUserText, Bool.false_eq_true, if_false, if_true, bind, Except.bind, pure, Except.pure,
    hu, hd]

/-- C88 (violated for GSM-7 texts of eight septets or more): the declared number of septets is taken for a number
of octets, so octets after the text are read into it. -/
theorem C88_after_gsm7_violated :
    (decodeSmsPduOctets (deliverOctets [0] 0x04 [5, 0x91, 0x72, 0x21, 0xF3] 0 0
      [0x31, 0x30, 0x41, 0x31, 0x20, 0x53, 0x80] 8 [0xC8, 0x32, 0x9B, 0xFD, 0x06, 0x85, 0x42])).map (·.body) =
      .ok (.deliver (some py!"+27123") 0 ⟨2013, 3, 14, 13, 2, 35, 0, some (.ofSeconds 7200)⟩ ⟨none, py!"Hello !!"⟩) ∧
    (decodeSmsPduOctets (deliverOctets [0] 0x04 [5, 0x91, 0x72, 0x21, 0xF3] 0 0
      [0x31, 0x30, 0x41, 0x31, 0x20, 0x53, 0x80] 8 [0xC8, 0x32, 0x9B, 0xFD, 0x06, 0x85, 0x42, 0x61])).map (·.body) =
      .ok (.deliver (some py!"+27123") 0 ⟨2013, 3, 14, 13, 2, 35, 0, some (.ofSeconds 7200)⟩ ⟨none, py!"Hello !!a"⟩) := by
  constructor <;> decide +kernel

/-! ### Hexadecimal strings -/

theorem unhex_append : ∀ {s a : List Nat} (t : List Nat), unhex s = some a → unhex (s ++ t) = (unhex t).map (a ++ ·)
  | [], a, t, h => by cases h; rw [List.nil_append]; cases unhex t <;> rfl
  | [c], a, t, h => by cases h
  | c :: d :: s, a, t, h => by
    rw [unhex.eq_def] at h
    dsimp only at h
    split at h
    · rename_i hi lo r h1 h2 h3
      cases h
      rw [List.cons_append, List.cons_append, unhex.eq_def]
      dsimp only
      rw [h1, h2, unhex_append t h3]
      cases unhex t <;> rfl
    · cases h

theorem length_unhex : ∀ {s a : List Nat}, unhex s = some a → s.length = 2 * a.length
  | [], a, h => by cases h; rfl
  | [c], a, h => by cases h
  | c :: d :: s, a, h => by
    rw [unhex.eq_def] at h
    dsimp only at h
    split at h
    · rename_i hi lo r h1 h2 h3
      cases h
      have := length_unhex h3
      simp only [List.length_cons, this]; omega
    · cases h

/-- C88. The same for the strings a modem answers with: of a string and its continuation that both decode, the
longer has the same fields and a text that goes on where the shorter ends. -/
theorem C88_strings {s t : PyStr} {r r' : DecodedSms} (h : decodeSmsPdu s = .ok r) (h' : decodeSmsPdu (s ++ t) = .ok r') :
    ContinuedBy (t.length / 2) r r' := by
  unfold decodeSmsPdu at h h'
  cases hs : unhex s with
  | none => rw [hs] at h; cases h
  | some a =>
    rw [hs] at h
    rw [unhex_append t hs] at h'
    cases ht : unhex t with
    | none => rw [ht] at h'; cases h'
    | some b =>
      rw [ht] at h'
      have := C88_continued (j := b) h h'
      rwa [length_unhex ht, Nat.mul_div_cancel_left _ (by omega)]

/-- C88. A string cut in the middle of an octet is refused with `EncodingError`, whatever it holds. -/
theorem C88_half_octet {s : PyStr} (h : s.length % 2 = 1) : decodeSmsPdu s = .error .encodingError := by
  unfold decodeSmsPdu
  cases hs : unhex s with
  | none => rfl
  | some a => have := length_unhex hs; omega

/-! Concrete cases: the message of `C23`, cut in every place: only cuts inside the text decode. -/

def cutMessage : List Nat := deliverOctets [0] 0x04 [5, 0x91, 0x72, 0x21, 0xF3] 0 0
  [0x31, 0x30, 0x41, 0x31, 0x20, 0x53, 0x80] 2 [0xE8, 0x34]

example : (List.range 20).filter (fun n => match decodeSmsPduOctets (cutMessage.take n) with
    | .ok _ => true | .error _ => false) = [18, 19] := by decide +kernel

example : ∃ r r', decodeSmsPduOctets (cutMessage.take 18) = .ok r ∧ decodeSmsPduOctets cutMessage = .ok r' ∧
    r.body = .deliver (some py!"+27123") 0 ⟨2013, 3, 14, 13, 2, 35, 0, some (.ofSeconds 7200)⟩ ⟨none, py!"h"⟩ ∧
    ContinuedBy 1 r r' := by
  have e : ∃ r, decodeSmsPduOctets (cutMessage.take 18) = .ok r ∧
    r.body = .deliver (some py!"+27123") 0 ⟨2013, 3, 14, 13, 2, 35, 0, some (.ofSeconds 7200)⟩ ⟨none, py!"h"⟩ :=
    ⟨⟨none, 17, _⟩, by decide +kernel, rfl⟩
  obtain ⟨r, h1, h2⟩ := e
  exact ⟨r, _, h1, rfl, h2, C88_continued (j := [0x34]) h1 rfl⟩

-- spoiled: the text goes on with an escape that ends it; a text declared empty
example : (decodeSmsPduOctets (cutMessage.take 18)).isOk = true ∧
    decodeSmsPduOctets (cutMessage.take 18 ++ [0x8D]) = .error .stopIteration := by decide +kernel
example : (decodeSmsPduOctets (cutMessage.take 16 ++ [0, 1])).isOk = true ∧
    decodeSmsPduOctets (cutMessage.take 16 ++ [0, 1, 1]) = .error .typeError := by decide +kernel

-- a UCS2 text and 8-bit data with an octet too many
example : (decodeSmsPduOctets (deliverOctets [0] 0x04 [5, 0x91, 0x72, 0x21, 0xF3] 0 8
    [0x31, 0x30, 0x41, 0x31, 0x20, 0x53, 0x80] 4 (ucs2Wire py!"hi" ++ [7]))).map (·.body) =
    .ok (.deliver (some py!"+27123") 0 ⟨2013, 3, 14, 13, 2, 35, 0, some (.ofSeconds 7200)⟩ ⟨none, py!"hi"⟩) := by
  rw [show (4 : Nat) = 2 * (py!"hi" : PyStr).length from rfl, C88_after_ucs2 .absent exampleAddr exampleTs (by decide) rfl
    rfl (by decide) (by decide) rfl (by decide) (by decide) (by decide)]
  rfl
example : (decodeSmsPduOctets (deliverOctets [0] 0x04 [5, 0x91, 0x72, 0x21, 0xF3] 0 4
    [0x31, 0x30, 0x41, 0x31, 0x20, 0x53, 0x80] 2 ([104, 105] ++ [33]))).map (·.body) =
    .ok (.deliver (some py!"+27123") 0 ⟨2013, 3, 14, 13, 2, 35, 0, some (.ofSeconds 7200)⟩ ⟨none, py!"hi!"⟩) := by
  rw [C88_after_data .absent exampleAddr exampleTs (by decide) rfl rfl (by decide) (by decide) rfl (by decide)
    (by decide) (by decide)]
  rfl

end Gsm
