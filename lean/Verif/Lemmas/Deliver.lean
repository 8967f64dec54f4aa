import Verif.Model.Pdu
import Verif.Spec.Deliver
import Verif.Lemmas.SubmitRound
namespace Gsm
open Spec

theorem bcd_eq : ∀ ds : List Nat, bcd ds = semiOctets ds
  | [] => rfl
  | [_] => rfl
  | a :: b :: s => by simp [bcd, semiOctets, bcd_eq s]

theorem ucs2Wire_eq (t : List Nat) : ucs2Wire t = ucs2Octets t := rfl

theorem encode_basic : ∀ s < 128, s ≠ 0x1B →
    (gsm7Basic[s]?.map (encodeGsm7Char false)) = some (.ok [s]) := by decide +kernel

theorem reads_encode {c : Nat} {code : List Nat} (h : Reads c code) (h1 : c ≠ 0xA7) (h2 : c ≠ 0x0C) :
    encodeGsm7Char false c = .ok code ∧ c ≠ 27 := by
  rcases h with ⟨s, hs, hne, rfl, hc⟩ | ⟨s, hs, rfl, hc⟩
  · have h5f : s ≠ 0x5F := by
      rintro rfl
      have : gsmChar 0x5F = some 0xA7 := by decide
      rw [this] at hc; simp at hc; exact h1 hc.symm
    rw [← gsm7Basic_std s hs h5f] at hc
    have := encode_basic s hs hne
    rw [hc] at this
    simp only [Option.map_some, Option.some.injEq] at this
    refine ⟨this, ?_⟩
    rintro rfl
    exact hne (gsm7Basic_inj hc gsm7Basic_27)
  · unfold gsmExtChar at hc
    split at hc <;> simp at hc <;> subst hc <;>
      first
      | exact absurd rfl h2
      | exact ⟨by decide, by decide⟩

theorem readable_encode {t code : List Nat} (h : Readable t code) : encodeGsm7 t = .ok code ∧ 27 ∉ t := by
  obtain ⟨h, h1, h2⟩ := h
  induction h with
  | nil => simp [encodeGsm7]
  | cons hc _ ih =>
    simp only [List.mem_cons, not_or] at h1 h2
    obtain ⟨e1, e2⟩ := reads_encode hc (Ne.symm h1.1) (Ne.symm h2.1)
    obtain ⟨e3, e4⟩ := ih h1.2 h2.2
    refine ⟨by simp [encodeGsm7, e1, e3, bind, Except.bind, pure, Except.pure], ?_⟩
    simp [e4, Ne.symm e2]

theorem packed_length {fill : Nat} {code ud : List Nat} (h : Packed fill code ud) :
    ud.length = (fill + 7 * code.length + 7) / 8 := by
  obtain ⟨_, k, hk, e⟩ := h
  have := congrArg List.length e
  simp at this; omega

theorem packed_read {code ud : List Nat} (h : Packed 0 code ud) (h7 : ∀ x ∈ code, x < 128) :
    readSeptets (stream 8 ud) = if code.length % 8 = 0 ∧ code.getLast? = some 0 then code.dropLast else code := by
  obtain ⟨_, k, hk, e⟩ := h
  have hk0 : k = 0 ↔ code.length % 8 = 0 := by
    have := congrArg List.length e
    simp at this; omega
  rw [e]
  simp only [zeros, List.replicate_zero, List.nil_append]
  have := readSeptets_packed h7 hk
  rw [zeros] at this
  rw [this]
  simp only [hk0]

theorem ton_facts : ∀ toa < 256, ((toa &&& 0x70 = 0x50) ↔ toa / 16 % 8 = 5) ∧
    ((toa &&& 0x70 = 0x10) ↔ toa / 16 % 8 = 1) := by decide +kernel

theorem addrWire_decode {sca : Bool} {a : Option PyStr} {f : List Nat} (h : AddrWire sca a f) :
    (∀ x ∈ f, x < 256) ∧ ∀ rest, (∀ x ∈ rest, x < 256) →
      decodeAddressField (f ++ rest) sca = .ok ((a, f.length), rest) := by
  cases h with
  | absent => exact ⟨by simp, fun _ _ => rfl⟩
  | @digits toa ds h1 h2 h3 h4 h5 =>
    have hpos := List.length_pos_iff.2 h4
    have hl := length_semiOctets ds
    obtain ⟨t1, t2⟩ := ton_facts toa h1
    rw [bcd_eq]
    refine ⟨?_, fun rest _ => ?_⟩
    · simp only [List.mem_cons]
      rintro x (rfl | rfl | hx)
      · exact h5
      · exact h1
      · exact semiOctets_lt h3 x hx
    · have hdec := decodeSemiOctets_limit rest (i := 0) h3 h4
      rw [Nat.zero_add] at hdec
      have hton : ¬ (toa &&& 0x70 = 0x50) := fun h => h2 (t1.1 h)
      cases sca with
      | true =>
        simp only [if_true, List.cons_append, decodeAddressField, next, bind, Except.bind, pure, Except.pure,
          hton, if_false, Nat.add_sub_cancel, ← hl, hdec, t2]
        simp
      | false =>
        have hoct : (if ds.length % 2 = 1 then ds.length / 2 + 1 else ds.length / 2) =
          (semiOctets ds).length := by rw [hl]; split <;> omega
        simp only [Bool.false_eq_true, if_false, List.cons_append, decodeAddressField, next, bind, Except.bind, pure,
          Except.pure, hpos, if_true, hton, hoct, hdec, t2]
        simp
  | @alpha toa t code ud len h1 h2 h3 h4 h5 h6 h7 =>
    obtain ⟨he, hesc⟩ := readable_encode h4
    obtain ⟨t1, t2⟩ := ton_facts toa h1
    have h7' := encodeGsm7_lt he
    have hcode := encodeGsm7_ne_nil he h3
    have hcp := List.length_pos_iff.2 hcode
    have hl := packed_length h5
    refine ⟨?_, fun rest hrest => ?_⟩
    · simp only [List.mem_cons]
      rintro x (rfl | rfl | hx)
      · exact h6
      · exact h1
      · exact h5.1 x hx
    · have hu := C05_unpack_exact (it := ud ++ rest) (n := ud.length) (by omega)
        (by intro h; have h := congrArg List.length h; rw [List.length_append] at h; simp only [List.length_nil] at h; omega)
        (by intro x hx; rcases List.mem_append.1 hx with h | h
            · exact h5.1 x h
            · exact hrest x h)
      rw [List.take_left' rfl, List.drop_left' rfl, packed_read h5 h7'] at hu
      simp only [List.cons_append, decodeAddressField, next, bind, Except.bind, pure, Except.pure,
        show len > 0 by omega, if_true, t1.2 h2, h7, hu, decode_trim he hesc]
      simp

theorem tzOctet_eq : ∀ (neg : Bool), ∀ q < 80,
    tzOctet neg q = (tzNibbles neg q).2 * 16 + (tzNibbles neg q).1 := by decide +kernel

theorem tsWire_decode {d : DateTime} {f : List Nat} (h : TsWire d f) :
    (∀ x ∈ f, x < 256) ∧ ∀ rest, decodeTimestamp (f ++ rest) = .ok (d, rest) := by
  cases h with
  | @mk neg q hv h1 h2 h3 h4 h5 =>
    have hz : (tzNibbles neg q).1 < 16 ∧ (tzNibbles neg q).2 < 15 ∧
        pduTzOffset ([(tzNibbles neg q).1, (tzNibbles neg q).2].map hexLower) =
          .ok (.ofSeconds (if neg then -(q * 900) else q * 900)) := by
      cases neg with
      | false => obtain ⟨_, a, b, c⟩ := tz_pos q h4; exact ⟨a, b, by simpa using c⟩
      | true => obtain ⟨_, a, b, c⟩ := tz_neg q h4; exact ⟨a, b, by simpa using c⟩
    obtain ⟨ha, hb, hp⟩ := hz
    have e : [swapped (d.year % 100), swapped d.month, swapped d.day, swapped d.hour, swapped d.minute,
        swapped d.second, tzOctet neg q] = nibblePairs ([d.year % 100 / 10, d.year % 100 % 10, d.month / 10, d.month % 10,
      d.day / 10, d.day % 10, d.hour / 10, d.hour % 10, d.minute / 10, d.minute % 10, d.second / 10,
      d.second % 10, (tzNibbles neg q).1, (tzNibbles neg q).2]) := by
      simp only [nibblePairs, swapped, tzOctet_eq neg q h4]
    rw [e]
    constructor
    · simp only [DateTime.valid, decide_eq_true_eq] at hv
      obtain ⟨_, _, m1, m2, d1, d2, hh, hm, hs⟩ := hv
      have d31 := le_trans d2 (daysInMonth_le _ _)
      simp only [nibblePairs, List.mem_cons, List.not_mem_nil, or_false]
      rintro x (h | h | h | h | h | h | h) <;> omega
    · intro rest
      rw [decodeTimestamp_nibbles hv h1 h2 ha hb hp rest]
      obtain ⟨y, m, dd, hh, mi, s, mic, off⟩ := d
      simp only at h3 h5
      rw [h3, h5]

theorem userWire_decode {a udl : Nat} {ud t : List Nat} (h : UserWire a udl ud t) :
    (∀ x ∈ ud, x < 256) ∧ decodeUserData ud udl a false = .ok ⟨none, t⟩ := by
  cases h with
  | @gsm7 t code ud ht hr hp =>
    obtain ⟨he, hesc⟩ := readable_encode hr
    have h7 := encodeGsm7_lt he
    have hcp := List.length_pos_iff.2 (encodeGsm7_ne_nil he ht)
    have hl := packed_length hp
    refine ⟨hp.1, ?_⟩
    have hne : ud ≠ [] := by intro h; rw [h] at hl; simp only [List.length_nil] at hl; omega
    have hu := C05_unpack_exact (it := ud) (n := code.length) (by omega) hne hp.1
    rw [List.take_of_length_le (by omega), packed_read hp h7] at hu
    simp only [decodeUserData, decodeUserText, if_true, hu, decode_trim he hesc, bind, Except.bind, pure, Except.pure,
      Bool.false_eq_true, if_false]
  | ucs2 h =>
    rw [ucs2Wire_eq]
    refine ⟨ucs2Octets_lt h, ?_⟩
    simp [decodeUserData, decodeUserText, decodeUcs2_all h (le_refl _), bind, Except.bind, pure, Except.pure]
  | data h =>
    refine ⟨h, ?_⟩
    simp [decodeUserData, decodeUserText, bind, Except.bind, pure, Except.pure]

theorem dcs_facts : ∀ dcs < 64, decodeDataCoding dcs = alphabetOf dcs := by decide +kernel

theorem and3 (n : Nat) : n &&& 0x03 = n % 4 := Nat.and_two_pow_sub_one_eq_mod n 2

theorem udhi (n : Nat) : decide ((n &&& 0x40) ≠ 0) = n.testBit 6 := by
  by_cases h : n.testBit 6
  · rw [h, decide_eq_true_eq]
    intro h0
    have := congrArg (·.testBit 6) h0
    rw [Nat.testBit_and, h, Nat.zero_testBit] at this
    exact absurd this (by decide)
  · rw [Bool.not_eq_true] at h
    rw [h, decide_eq_false_iff_not, not_not]
    apply Nat.eq_of_testBit_eq
    intro i
    rw [Nat.testBit_and, show (64 : Nat) = 2 ^ 6 from rfl, Nat.testBit_two_pow]
    by_cases hi : 6 = i
    · subst hi; simp [h]
    · simp [hi]

/-- Assembly of a DELIVER from decodable fields. -/
theorem deliver_assemble {smsc oa : Option PyStr} {sca oaf scts ud : List Nat} {fo pid dcs udl : Nat}
    {d : DateTime} {u : UserData} (hs : AddrWire true smsc sca) (ho : AddrWire false oa oaf) (ht : TsWire d scts)
    (hfo : fo < 256) (hmti : fo % 4 = 0) (hpid : pid < 256) (hdcs : dcs < 256) (hudl : udl < 256)
    (hud : ∀ x ∈ ud, x < 256)
    (hdec : decodeUserData ud udl (decodeDataCoding dcs) (fo.testBit 6) = .ok u) :
    decodeSmsPduOctets (deliverOctets sca fo oaf pid dcs scts udl ud) =
      .ok ⟨smsc, (deliverOctets sca fo oaf pid dcs scts udl ud).length - sca.length, .deliver oa pid d u⟩ := by
  obtain ⟨s1, s2⟩ := addrWire_decode hs
  obtain ⟨o1, o2⟩ := addrWire_decode ho
  obtain ⟨t1, t2⟩ := tsWire_decode ht
  have e : fo :: oaf ++ pid :: dcs :: scts ++ udl :: ud = fo :: (oaf ++ (pid :: dcs :: (scts ++ (udl :: ud)))) := by simp
  have hoct : ∀ x ∈ fo :: (oaf ++ (pid :: dcs :: (scts ++ (udl :: ud)))), x < 256 := by
    intro x hx
    simp only [List.mem_append, List.mem_cons] at hx
    rcases hx with rfl | h | rfl | rfl | h | rfl | h
    · exact hfo
    · exact o1 x h
    · exact hpid
    · exact hdcs
    · exact t1 x h
    · exact hudl
    · exact hud x h
  unfold decodeSmsPduOctets deliverOctets
  rw [e, s2 _ hoct]
  have hb : decodeTpdu (fo :: (oaf ++ (pid :: dcs :: (scts ++ (udl :: ud))))) = .ok (.deliver oa pid d u) := by
    have hrest : ∀ x ∈ (pid :: dcs :: (scts ++ (udl :: ud))), x < 256 := fun x hx =>
      hoct x (by simp only [List.mem_cons, List.mem_append] at hx ⊢; tauto)
    unfold decodeTpdu
    simp only [next, bind, Except.bind, pure, Except.pure, and3, hmti, udhi, if_true, o2 _ hrest, t2, hdec]
  simp only [bind, Except.bind, hb, pure, Except.pure]

end Gsm
