import Verif.Spec.Across
import Verif.Lemmas.Relay
import Verif.Lemmas.Distinct
import Verif.Props.Modes
import Verif.Props.Wire
/-! # Lemmas: the way of a text between programs in either mode -/
namespace Gsm
open Spec

/-! ### What the octets say -/

theorem packed_inj {a b ud : List Nat} (ha : ∀ x ∈ a, x < 128) (hb : ∀ x ∈ b, x < 128) (hl : a.length = b.length) (h1 : Packed 0 a ud) (h2 : Packed 0 b ud) : a = b := by
  obtain ⟨_, k1, _, s1⟩ := h1
  obtain ⟨_, k2, _, s2⟩ := h2
  rw [s1] at s2
  have := List.append_inj_left s2 (by simp [hl])
  exact stream7_inj ha hb (List.append_cancel_left this)

theorem readable_inj {t t' code : List Nat} (h : Readable t code) (h' : Readable t' code) : t = t' := by
  obtain ⟨e1, n1⟩ := readable_encode h
  obtain ⟨e2, n2⟩ := readable_encode h'
  have d1 := (C01_gsm7_roundtrip e1).2 n1
  have d2 := (C01_gsm7_roundtrip e2).2 n2
  rw [d1] at d2
  exact Except.ok.inj d2

theorem readable_code {t a b : List Nat} (h : Readable t a) (h' : Readable t b) : a = b := by
  have e1 := (readable_encode h).1
  rw [(readable_encode h').1] at e1
  exact (Except.ok.inj e1).symm

theorem readable_lt {t code : List Nat} (h : Readable t code) : ∀ x ∈ code, x < 128 := encodeGsm7_lt (readable_encode h).1

/-- Texts in the GSM alphabet have neither Ctrl-Z nor Escape in them. -/
theorem readable_endless {t code : List Nat} (h : Readable t code) : Endless t := by
  refine ⟨fun hm => ?_, (readable_encode h).2⟩
  have := (C02_accepts_iff t).1 ⟨code, (readable_encode h).1⟩ 26 hm
  have h1 : ∀ s < 128, gsmChar s ≠ some 26 := by decide +kernel
  have h2 : ∀ s < 128, gsmExtChar s ≠ some 26 := by decide +kernel
  rcases this with ⟨s, hs, h, _⟩ | ⟨s, hs, h, _⟩ | h
  · exact h1 s hs h
  · exact h2 s hs h
  · exact absurd h (by decide)

theorem body_says {f : SubmitFields} {text code seen shown : PyStr} (h : f.Says text code) (hb : Body (alphabetOf f.dcs) f.udl f.ud seen shown) :
    seen = trimAt (code.length % 8 = 0) text ∧ shown = text := by
  obtain ⟨-, h2, h3, h4, h5, -⟩ := h
  rw [h5] at hb
  generalize f.udl = udl at hb h4
  generalize f.ud = ud at hb h3
  generalize ha : (0 : Nat) = a at hb
  cases hb with
  | @gsm7 t code' ud n1 n2 n3 =>
    have := packed_inj (readable_lt n2) (readable_lt h2) h4 n3 h3
    subst this
    rw [readable_inj n2 h2]
    exact ⟨rfl, rfl⟩
  | ucs2 => cases ha
  | data => cases ha

/-! ### The sender -/

/-- What the octets that are sent say. -/
theorem made_says {text code : PyStr} {octets : List Nat} (hne : text ≠ []) (hr : Readable text code) (h : MadeOf text octets) :
    ∃ f, SubmitRead octets f ∧ f.Says text code := by
  obtain ⟨f, code', h1, h2, h3, h4, h5, h6, h7, h8, h9⟩ := h
  cases readable_code hr h6
  exact ⟨f, h1, hne, hr, h7, h8, by rw [h5]; rfl, by rw [h2]; rfl, by omega, by omega, by omega⟩

theorem pdu_says [PyUnicode] {number number' text code : PyStr} {r : Nat} (flash : Bool) (hnum : AddrOk false number number') (hr : r < 256)
    (hne : text ≠ []) (hread : Readable text code) (hlen : text.length ≤ 160) (hos : code.length < 256) :
    ∃ p f, encodeSmsSubmitPdu number text r (sendFlash := flash) = .ok [p] ∧ (∀ x ∈ p.data, x < 256) ∧ SubmitRead p.data f ∧ f.Says text code := by
  obtain ⟨henc, hesc⟩ := readable_encode hread
  obtain ⟨p, h1, h2, -⟩ := relay_gsm7 flash hnum hr hne hesc henc hlen hos
  have hp : partsOf text 0 = none := by unfold partsOf maxMessageLength; rw [if_neg]; simp; omega
  obtain ⟨vbits, vpi, alphabet, e1, e2, e3⟩ := encodeSmsSubmitPdu_ok_iff.1 h1
  cases e1
  obtain rfl : alphabet = 0 := by
    rcases chooseAlphabet_ok e2 with ⟨_, rfl⟩ | ⟨hn, _⟩
    · rfl
    · exact absurd ((C02_accepts_iff text).1 ⟨code, henc⟩) hn
  rw [hp] at e3
  have e4 : submitPart number text r none flash (foOf 0 false true false) [] 0 none 0 = .ok p := by
    cases e3 with
    | cons h _ => exact h
  obtain ⟨sca, mr, da, vp, udh, ptext, ud, g1, g2, g3, g4, g5, g6, rfl⟩ := submitPart_ok_iff.1 e4
  obtain ⟨rfl, rfl⟩ : udh = [] ∧ ptext = text := g2
  obtain ⟨udl, body, rfl, hlt, -, ⟨-, os, o1, o2, o3⟩ | ⟨hn, -⟩⟩ := userDataPart_ok g6
  · rw [henc] at o1
    cases o1
    simp only [if_true] at o2 o3 ⊢
    have hvp : vp = [] := by cases g5; rfl
    have hsca : sca = [0] := by cases g1; rfl
    subst hvp hsca
    have hcode : code ≠ [] := encodeGsm7_ne_nil henc hne
    obtain ⟨out, q1, q2, q3, -⟩ := C03_pack_stream (p := 0) (by omega) (fun _ => hcode) (readable_lt hread)
    rw [o2] at q1
    cases q1
    refine ⟨_, ⟨[0], foOf 0 false true false, mr, da, 0, dcsOf flash 0, [], udl, body⟩, h1, h2, ⟨?_, (by show foOf 0 false true false % 4 = 1; decide), ⟨0, [], rfl, rfl⟩, address_field_shape g4, (by show 0 = vpOctets (foOf 0 false true false); decide)⟩,
      hne, hread, ⟨q2, by simpa [fillBits] using q3⟩, o3, (by show alphabetOf (dcsOf flash 0) = 0; cases flash <;> decide +kernel), (by show (foOf 0 false true false).testBit 6 = false; decide +kernel), (by show 0 < 256; decide),
      (by show dcsOf flash 0 < 64; cases flash <;> decide), hlt⟩
    simp [SubmitFields.octets, SubmitFields.tpdu]
  · exact absurd rfl hn

/-! ### The receiver -/

theorem passed_octets {octets os : List Nat} {m : Received} {f : SubmitFields} {text code : PyStr} (hf : SubmitRead octets f) (hs : f.Says text code) (h : Passed octets m os) :
    m.Octets os ∧ m.textSeen = trimAt (code.length % 8 = 0) text ∧ m.shown = text := by
  obtain ⟨f', sca, fo, oa, scts, h1, h2, h3, h4, h5, h6, h7, h8, h9⟩ := h
  cases submit_read_unique h1 hf
  obtain ⟨s1, s2⟩ := body_says hs h6
  obtain ⟨-, -, -, -, -, t1, t2, t3, t4⟩ := hs
  exact ⟨⟨sca, fo, oa, f.pid, f.dcs, scts, f.udl, f.ud, h2, h3, h4, h5, h6, h7, h8, h9.trans t1, t2, t3, t4⟩, s1, s2⟩

theorem held_message {env : Env} {b : St} {line mem idx : PyStr} {read : Bool} {os : List Nat} {m : Received} (hd : 0 < env.depth) (hl : StoredAt py!"+CMTI:" line mem idx)
    (hh : Holds env.reply b mem idx read m os) (ho : m.Octets os) (hq : 34 ∉ m.number) :
    ∃ b', handleSmsReceived line env b = (.ok (), b') ∧
      b'.callbacks = .smsReceived (messageGot b.smsTextMode read m (if b.smsTextMode then [10].intercalate (textLines m.shown) else m.textSeen)) :: b.callbacks := by
  obtain ⟨h1, ⟨len, hex, h2, h3⟩, h5⟩ := hh
  have hg : rxGroups cmtiRegex line = some [mem, idx] := stored_iff.2 ⟨mem, idx, rfl, hl⟩
  obtain ⟨b1, hb1, hb2, hb3, hb4⟩ : ∃ b1, setSmsMemory (some mem) none env b = (.ok (), b1) ∧ b1.log = chooseMemory b mem ++ b.log ∧
      b1.smsTextMode = b.smsTextMode ∧ b1.callbacks = b.callbacks := by
    unfold setSmsMemory chooseMemory
    by_cases hc : b.smsMemReadDelete = some mem
    · exact ⟨b, by simp [run_bind, run_get, hc, run_pure], by simp [hc], rfl, rfl⟩
    · obtain ⟨ls, hw⟩ := write_agreed (c := cpmsCmd mem) (s := b) hd (by simpa [cpmsCmd] using h1 hc)
      exact ⟨{ b with log := (cpmsCmd mem ++ [13]) :: b.log, smsMemReadDelete := some mem },
        by simp [run_bind, run_get, Ne.symm hc, hw, run_modify], by simp [hc, cpmsCmd], rfl, rfl⟩
  obtain ⟨b2, hb⟩ : ∃ b2, b2 = { b1 with log := (cmgrCmd idx ++ [13]) :: b1.log } := ⟨_, rfl⟩
  have hb5 : b2.smsTextMode = b.smsTextMode := by rw [hb]; exact hb3
  have hb6 : b2.callbacks = b1.callbacks := by rw [hb]
  have hlast : ∀ x, (if b.smsTextMode then textAnswer read m else pduAnswer x len hex).getLast? = some py!"OK" := by
    intro x
    cases b.smsTextMode with
    | true =>
      simp only [if_true, textAnswer, shownLines]
      rw [List.getLast?_append]; rfl
    | false => rfl
  have hw1 : write (cmgrCmd idx) true [13] env b1 = (.ok (if b.smsTextMode then textAnswer read m else pduAnswer (if read then 1 else 0) len hex), b2) := by
    rw [hb]; exact C32_mapping hd (by rw [hb2]; exact h3) (.fine (line := py!"OK") (hlast _) (by decide) (by decide))
  obtain ⟨ls, hw2⟩ := write_agreed (c := cmgdCmd idx) (s := b2) hd (by rw [hb]; simpa [cmgdCmd, cmgrCmd, hb2] using h5)
  have h0 : ∀ s, setSmsMemory none none env s = (.ok (), s) := fun _ => rfl
  have e : ((if read then 1 else 0 : Nat) : Int) = if read then 1 else 0 := by cases read <;> rfl
  have hp := C102_pdu ho h2 (if read then 1 else 0) len
  have ht := C102_text ho hq read
  rw [e] at hp
  cases hm : b.smsTextMode with
  | false =>
    rw [hm] at hb5 hw1
    simp only [Bool.false_eq_true, if_false] at hw1
    refine ⟨_, by simp only [handleSmsReceived, hg, readStoredSms, deleteStoredSms, run_bind, hb1, hw1, run_get, hb5, Bool.false_eq_true, if_false, run_ofExcept, hp, h0, hw2, callback, run_modify, run_pure]; rfl, ?_⟩
    rw [← hb4, ← hb6]; rfl
  | true =>
    rw [hm] at hb5 hw1
    simp only [if_true] at hw1
    refine ⟨_, by simp only [handleSmsReceived, hg, readStoredSms, deleteStoredSms, run_bind, hb1, hw1, run_get, hb5, if_true, run_ofExcept, ht, h0, hw2, callback, run_modify, run_pure]; rfl, ?_⟩
    rw [← hb4, ← hb6]; rfl

theorem arrives_either {textMode : Bool} {taken code text : PyStr} (h : ∀ octets, Transmits textMode taken octets → ∃ f, SubmitRead octets f ∧ f.Says text code) :
    ArrivesEither textMode taken code text := by
  intro octets os m ht hp hq env b line mem idx read hd hl hh
  obtain ⟨f, hf, hs⟩ := h octets ht
  obtain ⟨h1, h2, h3⟩ := passed_octets hf hs hp
  obtain ⟨b', g1, g2⟩ := held_message hd hl hh h1 hq
  refine ⟨b', g1, ?_⟩
  rw [g2, h2, h3]
  rfl

end Gsm
