import Verif.Props.Submit
/-! # Properties C17, C18, C19: SMS-SUBMIT round trip, single and multipart -/
namespace Gsm
open Spec

/-- Assembly of one decodable part. -/
theorem part_round [PyUnicode] {number number' text : PyStr} {r : Nat} {v : Validity} {dv : DecodedValidity}
    {smsc smsc' : Option PyStr} {srr rd flash mp : Bool} {alphabet : Nat} {parts : Option Nat} {i : Nat}
    {udh : List Nat} {ptext : PyStr} {udl : Nat} {ud : List Nat} {u : UserData} {vpi : List Int}
    (hnum : AddrOk false number number') (hsmsc : SmscOk smsc smsc') (hv : ValidityOk v dv) (hr : r < 256)
    (hvpi : validityPart v = .ok (vbitsOf v, vpi))
    (hpart : PartOf r text alphabet parts i udh ptext)
    (hud : userDataPart alphabet ptext udh = .ok (udl :: ud)) (hud' : ∀ x ∈ ud, x < 256) (hudl : udl < 256)
    (halpha : alphabet = 0 ∨ alphabet = 8)
    (hdec : decodeUserData ud udl (if alphabet = 0 then 0 else 2) mp = .ok u) :
    ∃ p, submitPart number text r smsc flash (foOf (vbitsOf v) rd srr mp) vpi alphabet parts i = .ok p ∧
      ∃ len, decodeSmsPduOctets p.data = .ok ⟨smsc', len, .submit r (some number') 0 dv u⟩ := by
  obtain ⟨sca, s1, s2, s3⟩ := smsc_field hsmsc
  obtain ⟨da, a1, a2, _, a3⟩ := addr_field hnum
  obtain ⟨vpi', vp, v1, v2, v3, v4⟩ := validity_field hv
  rw [hvpi] at v1; cases v1
  have hdcs : dcsOf flash alphabet < 256 ∧
      decodeDataCoding (dcsOf flash alphabet) = if alphabet = 0 then 0 else 2 := by
    rcases halpha with rfl | rfl <;> cases flash <;> decide
  have hd := decode_submit (rd := rd) (srr := srr) (mr := r) (pid := 0) s3 a3 v4 a2 v3 hud' hr (by omega) hdcs.1
    hudl (by rw [hdcs.2]; exact hdec)
  refine ⟨_, submitPart_ok_iff.2 ⟨sca, r, da, vp, udh, ptext, _, s1, hpart, byteOf_ok hr, a1, v2, hud, rfl⟩, ?_⟩
  refine ⟨(SubmitFields.tpdu ⟨sca, foOf (vbitsOf v) rd srr mp, r, da, 0, dcsOf flash alphabet, vp, udl, ud⟩).length, ?_⟩
  have e : (sca ++ foOf (vbitsOf v) rd srr mp :: r :: da ++ 0 :: dcsOf flash alphabet :: vp ++ udl :: ud) =
    SubmitFields.octets ⟨sca, foOf (vbitsOf v) rd srr mp, r, da, 0, dcsOf flash alphabet, vp, udl, ud⟩ := by
    simp [SubmitFields.octets, SubmitFields.tpdu]
  rw [e]
  exact hd

/-- C17, GSM-7 texts. Everything given comes back, except a final '@' when the number of septets is
a multiple of 8. -/
theorem C17_gsm7 [PyUnicode] {number number' text os : PyStr} {r : Nat} {v : Validity} {dv : DecodedValidity}
    {smsc smsc' : Option PyStr} (srr rd flash : Bool)
    (hnum : AddrOk false number number') (hsmsc : SmscOk smsc smsc') (hv : ValidityOk v dv) (hr : r < 256)
    (hne : text ≠ []) (hesc : 27 ∉ text) (henc : encodeGsm7 text = .ok os)
    (hlen : text.length ≤ 160) (hos : os.length < 256) :
    ∃ p, encodeSmsSubmitPdu number text r v smsc srr rd flash = .ok [p] ∧
      ∃ len, decodeSmsPduOctets p.data =
        .ok ⟨smsc', len, .submit r (some number') 0 dv ⟨none, trimAt (os.length % 8 = 0) text⟩⟩ := by
  obtain ⟨vpi, _, v1, _⟩ := validity_field hv
  obtain ⟨body, b1, b2, _, b3⟩ := userData_gsm7 hne hesc henc hos
  have hp : partsOf text 0 = none := by unfold partsOf maxMessageLength; rw [if_neg]; simp; omega
  obtain ⟨p, h1, h2⟩ := part_round (srr := srr) (rd := rd) (flash := flash) (mp := false) (i := 0) (parts := none)
    (text := text) hnum hsmsc hv hr v1 ⟨rfl, rfl⟩ b1 b2 hos (.inl rfl) b3
  refine ⟨p, encodeSmsSubmitPdu_ok_iff.2 ⟨_, _, 0, v1, by simp [chooseAlphabet, henc], ?_⟩, h2⟩
  rw [hp]
  exact .cons h1 .nil

/-- C17, other texts (UCS2): everything comes back. -/
theorem C17_ucs2 [PyUnicode] {number number' text : PyStr} {r : Nat} {v : Validity} {dv : DecodedValidity}
    {smsc smsc' : Option PyStr} (srr rd flash : Bool)
    (hnum : AddrOk false number number') (hsmsc : SmscOk smsc smsc') (hv : ValidityOk v dv) (hr : r < 256)
    (henc : encodeGsm7 text = .error .valueError) (hbmp : ∀ c ∈ text, c < 65536)
    (hlen : text.length ≤ 70) :
    ∃ p, encodeSmsSubmitPdu number text r v smsc srr rd flash = .ok [p] ∧
      ∃ len, decodeSmsPduOctets p.data =
        .ok ⟨smsc', len, .submit r (some number') 0 dv ⟨none, text⟩⟩ := by
  obtain ⟨vpi, _, v1, _⟩ := validity_field hv
  obtain ⟨b1, b3⟩ := userData_ucs2 hbmp (by omega)
  have hp : partsOf text 8 = none := by unfold partsOf maxMessageLength; rw [if_neg]; simp; omega
  obtain ⟨p, h1, h2⟩ := part_round (srr := srr) (rd := rd) (flash := flash) (mp := false) (i := 0) (parts := none)
    (text := text) hnum hsmsc hv hr v1 ⟨rfl, rfl⟩ b1 (ucs2Octets_lt hbmp) (by omega) (.inr rfl) b3
  refine ⟨p, encodeSmsSubmitPdu_ok_iff.2 ⟨_, _, 8, v1, by simp [chooseAlphabet, henc], ?_⟩, h2⟩
  rw [hp]
  exact .cons h1 .nil

/-- C17. The empty text cannot be sent: `StopIteration` escapes. -/
theorem C17_empty_text [PyUnicode] {number number' : PyStr} {r : Nat} {v : Validity} {dv : DecodedValidity}
    {smsc smsc' : Option PyStr} (srr rd flash : Bool)
    (hnum : AddrOk false number number') (hsmsc : SmscOk smsc smsc') (hv : ValidityOk v dv) (hr : r < 256) :
    encodeSmsSubmitPdu number [] r v smsc srr rd flash = .error .stopIteration := by
  obtain ⟨sca, s1, _⟩ := smsc_field hsmsc
  obtain ⟨da, a1, _⟩ := addr_field hnum
  obtain ⟨vpi, vp, v1, v2, _⟩ := validity_field hv
  have hu : userDataPart 0 [] [] = .error .stopIteration := by decide
  simp only [encodeSmsSubmitPdu, v1, chooseAlphabet, encodeGsm7, bind, Except.bind, List.length_nil,
    maxMessageLength, if_true, show ¬ ((0 : Nat) > 160) by omega, if_false, show List.range 1 = [0] from rfl, submitLoop, submitPart, s1, pure,
    Except.pure, byteOf_ok hr, a1, v2, hu]

-- a message with everything, and a text that loses its '@'
attribute [local instance] asciiUnicode in
example : ((encodeSmsSubmitPdu py!"+27820001111" py!"Hello, {World}" 7 (.relative ⟨3, 0, 0⟩)
      (some py!"+27831112222") true true true).bind fun ps => decodeSmsPduOctets (ps[0]?.map (·.data) |>.getD [])) =
    .ok ⟨some py!"+27831112222", 28, .submit 7 (some py!"+27820001111") 0 (.relative ⟨3, 0, 0⟩)
      ⟨none, py!"Hello, {World}"⟩⟩ ∧
    ((encodeSmsSubmitPdu py!"123" py!"sevench@").bind fun ps =>
      decodeSmsPduOctets (ps[0]?.map (·.data) |>.getD [])) =
    .ok ⟨none, 16, .submit 0 (some py!"123") 0 .absent ⟨none, py!"sevench"⟩⟩ := by decide +kernel
attribute [local instance] asciiUnicode in
example : AddrOk false py!"+27820001111" py!"+27820001111" := .phone (.intl (by decide) (by decide)) (by decide)

/-! ### C18 -/

/-- The `i`-th slice of a text cut in pieces of `k` characters. -/
def slice (k : Nat) (text : PyStr) (i : Nat) : PyStr := (text.drop (i * k)).take k

theorem forall₂_range {α} {R : Nat → α → Prop} : ∀ {n : Nat}, (∀ i < n, ∃ p, R i p) →
    ∃ ps, List.Forall₂ R (List.range n) ps ∧ ps.length = n := by
  intro n h
  have h' : ∀ l : List Nat, (∀ i ∈ l, ∃ p, R i p) → ∃ ps, List.Forall₂ R l ps := by
    intro l
    induction l with
    | nil => intro _; exact ⟨[], .nil⟩
    | cons i l ih =>
      intro hl
      obtain ⟨p, hp⟩ := hl i (by simp)
      obtain ⟨ps, hps⟩ := ih (fun j hj => hl j (by simp [hj]))
      exact ⟨p :: ps, .cons hp hps⟩
  obtain ⟨ps, hps⟩ := h' (List.range n) (fun i hi => h i (List.mem_range.1 hi))
  exact ⟨ps, hps, by rw [← hps.length_eq, List.length_range]⟩

theorem encode_slice {text os : PyStr} (h : encodeGsm7 text = .ok os) (k i : Nat) :
    ∃ osi, encodeGsm7 (slice k text i) = .ok osi := by
  rw [C02_accepts_iff]
  intro c hc
  exact (C02_accepts_iff text).1 ⟨os, h⟩ c (List.mem_of_mem_drop (List.mem_of_mem_take hc))

theorem concat_octets {r n i : Nat} {body : List Nat} (hr : r < 256) (hn : n < 256) (hi : i < 256)
    (hb : ∀ x ∈ body, x < 256) : ∀ x ∈ List.append (5 :: concatUdh r n i) body, x < 256 := by
  intro x hx
  rcases List.mem_append.1 hx with h | h
  · simp only [concatUdh, List.mem_cons, List.not_mem_nil, or_false] at h
    omega
  · exact hb x h

theorem slice_ne_nil {k L : Nat} {text : PyStr} {i : Nat} (hk : 0 < k) (hkL : k < L) (hl : L < text.length)
    (hi : i < text.length / L + 1) : slice k text i ≠ [] := by
  have h1 : i * k < text.length := by
    have h2 : i ≤ text.length / L := by omega
    have h3 : text.length / L * L ≤ text.length := Nat.div_mul_le_self _ _
    have h4 : i * k ≤ text.length / L * k := Nat.mul_le_mul_right k h2
    have h0 : 0 < text.length / L := Nat.div_pos (le_of_lt hl) (by omega)
    have h5 : text.length / L * k < text.length / L * L := Nat.mul_lt_mul_of_pos_left hkL h0
    omega
  unfold slice
  intro h
  have := congrArg List.length h
  simp at this; omega

/-- C18, GSM-7: a text of more than 160 characters is sent in `len / 160 + 1` parts; the `i`-th part
carries the concatenation element (reference, number of parts, `i + 1`) and decodes to the `i`-th
slice of 153 characters (up to a final '@' when its septet count is 1 modulo 8). -/
theorem C18_gsm7 [PyUnicode] {number number' text os : PyStr} {r : Nat} {v : Validity} {dv : DecodedValidity}
    {smsc smsc' : Option PyStr} (srr rd flash : Bool)
    (hnum : AddrOk false number number') (hsmsc : SmscOk smsc smsc') (hv : ValidityOk v dv) (hr : r < 256)
    (hesc : 27 ∉ text) (henc : encodeGsm7 text = .ok os) (hlen : 160 < text.length)
    (hn : text.length / 160 + 1 < 256)
    (hfit : ∀ i osi, encodeGsm7 (slice 153 text i) = .ok osi → osi.length ≤ 248) :
    ∃ ps, encodeSmsSubmitPdu number text r v smsc srr rd flash = .ok ps ∧
      ps.length = text.length / 160 + 1 ∧
      List.Forall₂ (fun i p => ∃ len osi, encodeGsm7 (slice 153 text i) = .ok osi ∧ decodeSmsPduOctets p.data =
        .ok ⟨smsc', len, .submit r (some number') 0 dv
          ⟨some [concatIE r (text.length / 160 + 1) (i + 1)], trimAt (osi.length % 8 = 1) (slice 153 text i)⟩⟩)
        (List.range (text.length / 160 + 1)) ps := by
  obtain ⟨vpi, _, v1, _⟩ := validity_field hv
  have hp : partsOf text 0 = some (text.length / 160 + 1) := by
    unfold partsOf maxMessageLength; simp; omega
  generalize hN : text.length / 160 + 1 = N at *
  have key : ∀ i < N, ∃ p, submitPart number text r smsc flash (foOf (vbitsOf v) rd srr true) vpi 0 (some N) i = .ok p ∧
      ∃ len osi, encodeGsm7 (slice 153 text i) = .ok osi ∧ decodeSmsPduOctets p.data =
        .ok ⟨smsc', len, .submit r (some number') 0 dv
          ⟨some [concatIE r N (i + 1)], trimAt (osi.length % 8 = 1) (slice 153 text i)⟩⟩ := by
    intro i hi
    obtain ⟨osi, ho⟩ := encode_slice henc 153 i
    have hs : slice 153 text i ≠ [] := slice_ne_nil (L := 160) (by omega) (by omega) hlen (by omega)
    have hes : 27 ∉ slice 153 text i := fun h => hesc (List.mem_of_mem_drop (List.mem_of_mem_take h))
    have hos := hfit i osi ho
    obtain ⟨body, b1, b2, _, b3⟩ := userData_gsm7_part (r := r) (n := N) (i := i + 1) hs hes ho
      (by omega) hr hn (by omega)
    obtain ⟨p, h1, len, h2⟩ := part_round (srr := srr) (rd := rd) (flash := flash) (mp := true) (i := i)
      (parts := some N) (udh := concatUdh r N (i + 1)) (ptext := slice 153 text i)
      (text := text) hnum hsmsc hv hr v1 ⟨concat_ok hr hn (by omega), rfl⟩ b1
      (concat_octets hr hn (by omega) (b2)) (by omega) (.inl rfl) b3
    exact ⟨p, h1, len, osi, ho, h2⟩
  obtain ⟨ps, hps, hl⟩ := forall₂_range key
  refine ⟨ps, encodeSmsSubmitPdu_ok_iff.2 ⟨_, _, 0, v1, by simp [chooseAlphabet, henc], ?_⟩, hl, ?_⟩
  · rw [hp]; exact hps.imp (fun _ _ h => h.1)
  · exact hps.imp (fun _ _ h => h.2)

/-- C18, UCS2: `len / 70 + 1` parts, each decoding to its slice of 67 characters. -/
theorem C18_ucs2 [PyUnicode] {number number' text : PyStr} {r : Nat} {v : Validity} {dv : DecodedValidity}
    {smsc smsc' : Option PyStr} (srr rd flash : Bool)
    (hnum : AddrOk false number number') (hsmsc : SmscOk smsc smsc') (hv : ValidityOk v dv) (hr : r < 256)
    (henc : encodeGsm7 text = .error .valueError) (hbmp : ∀ c ∈ text, c < 65536) (hlen : 70 < text.length)
    (hn : text.length / 70 + 1 < 256) :
    ∃ ps, encodeSmsSubmitPdu number text r v smsc srr rd flash = .ok ps ∧
      ps.length = text.length / 70 + 1 ∧
      List.Forall₂ (fun i p => ∃ len, decodeSmsPduOctets p.data =
        .ok ⟨smsc', len, .submit r (some number') 0 dv
          ⟨some [concatIE r (text.length / 70 + 1) (i + 1)], slice 67 text i⟩⟩)
        (List.range (text.length / 70 + 1)) ps := by
  obtain ⟨vpi, _, v1, _⟩ := validity_field hv
  have hp : partsOf text 8 = some (text.length / 70 + 1) := by
    unfold partsOf maxMessageLength; simp; omega
  generalize hN : text.length / 70 + 1 = N at *
  have key : ∀ i < N, ∃ p, submitPart number text r smsc flash (foOf (vbitsOf v) rd srr true) vpi 8 (some N) i = .ok p ∧
      ∃ len, decodeSmsPduOctets p.data =
        .ok ⟨smsc', len, .submit r (some number') 0 dv
          ⟨some [concatIE r N (i + 1)], slice 67 text i⟩⟩ := by
    intro i hi
    have hb : ∀ c ∈ slice 67 text i, c < 65536 :=
      fun c hc => hbmp c (List.mem_of_mem_drop (List.mem_of_mem_take hc))
    have hsl : (slice 67 text i).length ≤ 67 := by simp [slice]
    obtain ⟨b1, b3⟩ := userData_ucs2_part (r := r) (n := N) (i := i + 1) hb (by omega)
    obtain ⟨p, h1, len, h2⟩ := part_round (srr := srr) (rd := rd) (flash := flash) (mp := true) (i := i)
      (parts := some N) (udh := concatUdh r N (i + 1)) (ptext := slice 67 text i)
      (text := text) hnum hsmsc hv hr v1 ⟨concat_ok hr hn (by omega), rfl⟩ b1
      (concat_octets hr hn (by omega) (ucs2Octets_lt hb)) (by omega) (.inr rfl) b3
    exact ⟨p, h1, len, h2⟩
  obtain ⟨ps, hps, hl⟩ := forall₂_range key
  refine ⟨ps, encodeSmsSubmitPdu_ok_iff.2 ⟨_, _, 8, v1, by simp [chooseAlphabet, henc], ?_⟩, hl, ?_⟩
  · rw [hp]; exact hps.imp (fun _ _ h => h.1)
  · exact hps.imp (fun _ _ h => h.2)

/-- C18. More than 255 parts are never sent. -/
theorem C18_too_many [PyUnicode] {number text : PyStr} {reference : Int} {validity : Validity}
    {smsc : Option PyStr} {srr rd flash : Bool} {ps : List Pdu}
    (h : encodeSmsSubmitPdu number text reference validity smsc srr rd flash = .ok ps) : ps.length < 256 := by
  obtain ⟨alphabet, h1, _, h2⟩ := submit_inv h
  have hl := h2.length_eq
  rw [List.length_range] at hl
  rw [← hl]
  cases hp : partsOf text alphabet with
  | none => simp
  | some n =>
    rw [hp] at h2 hl
    simp only [Option.getD_some] at *
    cases ps with
    | nil => simp at hl; omega
    | cons p ps =>
      obtain ⟨i, _, F, udh, ptext, _, _, _, _, _, _, _, hpart, _⟩ := forall₂_mem_right h2 (List.mem_cons_self)
      by_contra hn
      have := C14_concatenation_reject reference n (i + 1 : Nat) (by omega)
      rw [hpart.1] at this; cases this

-- 161 characters: 2 parts (153 + 8)
attribute [local instance] asciiUnicode in
example : (encodeSmsSubmitPdu py!"123" (List.replicate 161 97)).map (·.map (fun p =>
      (decodeSmsPduOctets p.data).map (fun d => match d.body with
        | .submit _ _ _ _ u => (u.udh.map (·.map (·.kind)), u.text.length)
        | _ => (none, 0)))) =
    .ok [.ok (some [.concatenation 0 2 1], 153), .ok (some [.concatenation 0 2 2], 8)] := by decide +kernel

/-! ### C19 -/

theorem slices_join (k : Nat) (text : PyStr) : ∀ n, (List.range n).flatMap (slice k text) = text.take (n * k)
  | 0 => by simp
  | n + 1 => by
    rw [List.range_succ, List.flatMap_append, slices_join k text n]
    simp only [slice, List.flatMap_cons, List.flatMap_nil, List.append_nil]
    rw [Nat.succ_mul, List.take_add]

/-- The text a receiver gets out of one part. -/
def receivedText (p : Pdu) : PyStr :=
  match decodeSmsPduOctets p.data with
  | .ok ⟨_, _, .submit _ _ _ _ u⟩ => u.text
  | _ => []

theorem flatMap_forall₂ {f : Nat → PyStr} {g : Pdu → PyStr} {l : List Nat} {ps : List Pdu}
    (h : List.Forall₂ (fun i p => g p = f i) l ps) : ps.flatMap g = l.flatMap f := by
  induction h with
  | nil => rfl
  | cons h _ ih => simp [h, ih]

/-- C19, GSM-7. The texts of the parts together are the first `153 * parts` characters of the text;
everything after them is lost. (Texts without '@', whose loss at the end of a part is described by
C18, and without extension characters.) -/
theorem C19_gsm7_received [PyUnicode] {number number' text os : PyStr} {r : Nat} {v : Validity}
    {dv : DecodedValidity} {smsc smsc' : Option PyStr} (srr rd flash : Bool)
    (hnum : AddrOk false number number') (hsmsc : SmscOk smsc smsc') (hv : ValidityOk v dv) (hr : r < 256)
    (hesc : 27 ∉ text) (hat : 64 ∉ text) (henc : encodeGsm7 text = .ok os) (hext : ∀ c ∈ text, ¬ IsExt c)
    (hlen : 160 < text.length) (hn : text.length / 160 + 1 < 256) :
    ∃ ps, encodeSmsSubmitPdu number text r v smsc srr rd flash = .ok ps ∧
      ps.flatMap receivedText = text.take ((text.length / 160 + 1) * 153) ∧
      (ps.flatMap receivedText = text ↔ text.length ≤ (text.length / 160 + 1) * 153) := by
  obtain ⟨ps, h1, _, h3⟩ := C18_gsm7 srr rd flash hnum hsmsc hv hr hesc henc hlen hn (by
    intro i osi ho
    rw [encodeGsm7_length ho (fun c hc => hext c (List.mem_of_mem_drop (List.mem_of_mem_take hc)))]
    simp [slice])
  have h4 : ps.flatMap receivedText = text.take ((text.length / 160 + 1) * 153) := by
    rw [← slices_join]
    apply flatMap_forall₂
    refine h3.imp ?_
    rintro i p ⟨len, osi, _, hd⟩
    simp only [receivedText, hd, trimAt]
    rw [if_neg]
    rintro ⟨_, hl⟩
    exact hat (List.mem_of_mem_drop (List.mem_of_mem_take (List.mem_of_getLast? hl)))
  refine ⟨ps, h1, h4, ?_⟩
  rw [h4]
  constructor
  · intro h
    have := congrArg List.length h
    rw [List.length_take] at this; omega
  · exact List.take_of_length_le

/-- C19, UCS2. -/
theorem C19_ucs2_received [PyUnicode] {number number' text : PyStr} {r : Nat} {v : Validity}
    {dv : DecodedValidity} {smsc smsc' : Option PyStr} (srr rd flash : Bool)
    (hnum : AddrOk false number number') (hsmsc : SmscOk smsc smsc') (hv : ValidityOk v dv) (hr : r < 256)
    (henc : encodeGsm7 text = .error .valueError) (hbmp : ∀ c ∈ text, c < 65536) (hlen : 70 < text.length)
    (hn : text.length / 70 + 1 < 256) :
    ∃ ps, encodeSmsSubmitPdu number text r v smsc srr rd flash = .ok ps ∧
      ps.flatMap receivedText = text.take ((text.length / 70 + 1) * 67) ∧
      (ps.flatMap receivedText = text ↔ text.length ≤ (text.length / 70 + 1) * 67) := by
  obtain ⟨ps, h1, _, h3⟩ := C18_ucs2 srr rd flash hnum hsmsc hv hr henc hbmp hlen hn
  have h4 : ps.flatMap receivedText = text.take ((text.length / 70 + 1) * 67) := by
    rw [← slices_join]
    apply flatMap_forall₂
    refine h3.imp ?_
    rintro i p ⟨len, hd⟩
    simp only [receivedText, hd]
  refine ⟨ps, h1, h4, ?_⟩
  rw [h4]
  constructor
  · intro h
    have := congrArg List.length h
    rw [List.length_take] at this; omega
  · exact List.take_of_length_le

/-- C19 is violated: 307 letters are sent as 2 parts of 153, one letter is lost; and from 3520
(GSM-7) or 1610 (UCS2) characters on every text loses its end. -/
theorem C19_violated :
    (∀ n, 3520 ≤ n → (n / 160 + 1) * 153 < n) ∧ (∀ n, 1610 ≤ n → (n / 70 + 1) * 67 < n) ∧
    (@encodeSmsSubmitPdu asciiUnicode py!"123" (List.replicate 307 97) 0 .none none true false false).map
      (fun ps => (ps.flatMap receivedText).length) = .ok 306 := by
  refine ⟨fun n h => by omega, fun n h => by omega, by decide +kernel⟩

end Gsm
