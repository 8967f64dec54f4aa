import Verif.Spec.SubmitWire
import Verif.Props.Deliver
import Verif.Props.Validity
import Verif.Lemmas.SubmitRound
/-! # Property C93: SMS-SUBMIT decoding -/
namespace Gsm
open Spec

theorem vpWire_decode {k : Nat} {v : DecodedValidity} {vp : List Nat} (h : VpWire k v vp) :
    (∀ x ∈ vp, x < 256) ∧ ∀ rest, decodeVp k (vp ++ rest) = .ok (v, rest) := by
  cases h with
  | none => exact ⟨by simp, fun rest => rfl⟩
  | @relative x hx =>
    refine ⟨by simpa using hx, fun rest => ?_⟩
    simp [decodeVp, next, bind, Except.bind, C11_decode, hx, pure, Except.pure]
  | absolute ht =>
    obtain ⟨t1, t2⟩ := tsWire_decode ht
    refine ⟨t1, fun rest => ?_⟩
    simp [decodeVp, bind, Except.bind, t2, pure, Except.pure]

theorem vpf_bits : ∀ fo < 256, ((fo &&& 0x18) >>> 3) = fo / 8 % 4 := by decide +kernel

/-- What the decoder does with an SMS-SUBMIT whose addresses are well-formed, up to the validity period. -/
theorem submit_wire {smsc da : Option PyStr} {sca daf rest : List Nat} {fo mr pid dcs : Nat}
    (hs : AddrWire true smsc sca) (hda : AddrWire false da daf) (hfo : fo < 256) (hmti : fo % 4 = 1) (hmr : mr < 256) (hpid : pid < 256) (hdcs : dcs < 256)
    (hrest : ∀ x ∈ rest, x < 256) :
    decodeSmsPduOctets (sca ++ (fo :: mr :: daf ++ pid :: dcs :: rest)) = (do
      let (validity, it) ← decodeVp (fo / 8 % 4) rest
      let (udl, it) ← next it
      let ud ← decodeUserData it udl (decodeDataCoding dcs) (fo.testBit 6)
      return ⟨smsc, (sca ++ (fo :: mr :: daf ++ pid :: dcs :: rest)).length - sca.length, .submit mr da pid validity ud⟩) := by
  obtain ⟨s1, s2⟩ := addrWire_decode hs
  obtain ⟨o1, o2⟩ := addrWire_decode hda
  have e : fo :: mr :: daf ++ pid :: dcs :: rest = fo :: mr :: (daf ++ (pid :: dcs :: rest)) := by simp
  have hr : ∀ x ∈ pid :: dcs :: rest, x < 256 := by
    intro x hx
    simp only [List.mem_cons] at hx
    rcases hx with rfl | rfl | hx
    · exact hpid
    · exact hdcs
    · exact hrest x hx
  have hoct : ∀ x ∈ fo :: mr :: (daf ++ (pid :: dcs :: rest)), x < 256 := by
    intro x hx
    simp only [List.mem_append, List.mem_cons] at hx
    rcases hx with rfl | rfl | h | h
    · exact hfo
    · exact hmr
    · exact o1 x h
    · exact hr x (by simpa using h)
  unfold decodeSmsPduOctets
  rw [e, s2 _ hoct]
  have hb : decodeTpdu (fo :: mr :: (daf ++ (pid :: dcs :: rest))) = (do
      let (validity, it) ← decodeVp (fo / 8 % 4) rest
      let (udl, it) ← next it
      let ud ← decodeUserData it udl (decodeDataCoding dcs) (fo.testBit 6)
      return .submit mr da pid validity ud) := by
    unfold decodeTpdu
    simp only [next, bind, Except.bind, pure, Except.pure, and3, hmti, udhi, o2 _ hr, vpf_bits fo hfo]
    simp only [show ¬ (1 = 0) by omega, if_false, if_true]
    unfold decodeVp
    simp only [next, bind, Except.bind, pure, Except.pure]
    split
    · cases rest with
      | nil => rfl
      | cons x rest => dsimp only; cases decodeRelativeValidityPeriod x <;> rfl
    · split
      · cases decodeTimestamp rest <;> rfl
      · rfl
  simp only [bind, Except.bind, hb, pure, Except.pure]
  cases decodeVp (fo / 8 % 4) rest with
  | error e => rfl
  | ok w =>
    dsimp only
    cases next w.2 with
    | error e => rfl
    | ok y =>
      dsimp only
      cases decodeUserData y.2 y.1 (decodeDataCoding dcs) (fo.testBit 6) <;> rfl

theorem wire_lt {vp ud : List Nat} {udl : Nat} (hv : ∀ x ∈ vp, x < 256) (hudl : udl < 256) (hud : ∀ x ∈ ud, x < 256) : ∀ x ∈ vp ++ udl :: ud, x < 256 := by
  intro x hx
  simp only [List.mem_append, List.mem_cons] at hx
  rcases hx with h | rfl | h
  · exact hv x h
  · exact hudl
  · exact hud x h

/-- C93. A well-formed SMS-SUBMIT, whoever made it, decodes to exactly its fields and what its user data decodes to. -/
theorem C93_submit_fields {smsc da : Option PyStr} {sca daf vp ud : List Nat} {fo mr pid dcs udl : Nat} {v : DecodedValidity} {u : UserData}
    (hs : AddrWire true smsc sca) (hda : AddrWire false da daf) (hv : VpWire (fo / 8 % 4) v vp)
    (hfo : fo < 256) (hmti : fo % 4 = 1) (hmr : mr < 256) (hpid : pid < 256) (hdcs : dcs < 64)
    (hudl : udl < 256) (hud : ∀ x ∈ ud, x < 256) (hdec : decodeUserData ud udl (alphabetOf dcs) (fo.testBit 6) = .ok u) :
    decodeSmsPduOctets (submitWire sca fo mr daf pid dcs vp udl ud) =
      .ok ⟨smsc, (submitWire sca fo mr daf pid dcs vp udl ud).length - sca.length, .submit mr da pid v u⟩ := by
  obtain ⟨v1, v2⟩ := vpWire_decode hv
  have e : submitWire sca fo mr daf pid dcs vp udl ud = sca ++ (fo :: mr :: daf ++ pid :: dcs :: (vp ++ udl :: ud)) := by simp [submitWire]
  rw [e, submit_wire hs hda hfo hmti hmr hpid (by omega) (wire_lt v1 hudl hud), v2]
  simp only [bind, Except.bind, next, dcs_facts dcs hdcs, hdec, pure, Except.pure]

/-- C93. Without a header: to its text. -/
theorem C93_submit {smsc da : Option PyStr} {sca daf vp ud t : List Nat} {fo mr pid dcs udl : Nat} {v : DecodedValidity}
    (hs : AddrWire true smsc sca) (hda : AddrWire false da daf) (hv : VpWire (fo / 8 % 4) v vp)
    (hfo : fo < 256) (hmti : fo % 4 = 1) (hudhi : fo.testBit 6 = false) (hmr : mr < 256) (hpid : pid < 256) (hdcs : dcs < 64)
    (hudl : udl < 256) (hud : UserWire (alphabetOf dcs) udl ud t) :
    decodeSmsPduOctets (submitWire sca fo mr daf pid dcs vp udl ud) =
      .ok ⟨smsc, (submitWire sca fo mr daf pid dcs vp udl ud).length - sca.length, .submit mr da pid v ⟨none, t⟩⟩ := by
  obtain ⟨u1, u2⟩ := userWire_decode hud
  exact C93_submit_fields hs hda hv hfo hmti hmr hpid hdcs hudl u1 (by rw [hudhi, u2])

-- one day of validity
example : decodeSmsPduOctets (submitWire [0] 0x11 7 [5, 0x91, 0x72, 0x21, 0xF3] 0 0 [0xA7] 2 [0xE8, 0x34]) =
    .ok ⟨none, 13, .submit 7 (some py!"+27123") 0 (.relative ⟨1, 0, 0⟩) ⟨none, py!"hi"⟩⟩ :=
  C93_submit (fo := 0x11) (mr := 7) (pid := 0) (dcs := 0) .absent exampleAddr (.relative (x := 0xA7) (by decide)) (by decide) rfl rfl (by decide) (by decide) (by decide) (by decide) exampleText
-- until a moment
example : decodeSmsPduOctets (submitWire [0] 0x19 7 [5, 0x91, 0x72, 0x21, 0xF3] 0 0 [0x31, 0x30, 0x41, 0x31, 0x20, 0x53, 0x80] 2 [0xE8, 0x34]) =
    .ok ⟨none, 19, .submit 7 (some py!"+27123") 0 (.absolute ⟨2013, 3, 14, 13, 2, 35, 0, some (.ofSeconds 7200)⟩) ⟨none, py!"hi"⟩⟩ :=
  C93_submit (fo := 0x19) (mr := 7) (pid := 0) (dcs := 0) .absent exampleAddr (.absolute exampleTs) (by decide) rfl rfl (by decide) (by decide) (by decide) (by decide) exampleText
-- a part of a longer message
example : decodeSmsPduOctets (submitWire [0] 0x41 7 [5, 0x91, 0x72, 0x21, 0xF3] 0 0 [] 9 [5, 0, 3, 42, 2, 1, 0xD0, 0x69]) =
    .ok ⟨none, 18, .submit 7 (some py!"+27123") 0 .absent ⟨some [⟨0, 3, [42, 2, 1], .concatenation 42 2 1⟩], py!"hi"⟩⟩ :=
  C93_submit_fields (fo := 0x41) (mr := 7) (pid := 0) (dcs := 0) (udl := 9) (ud := [5, 0, 3, 42, 2, 1, 0xD0, 0x69]) .absent exampleAddr .none (by decide) rfl (by decide) (by decide) (by decide) (by decide) (by decide) (by decide)

/-- C93, violated for the enhanced validity period (format 1): its seven octets are taken for the length of the user data and the user data. -/
theorem C93_enhanced {smsc da : Option PyStr} {sca daf vp ud : List Nat} {fo mr pid dcs udl v0 : Nat}
    (hs : AddrWire true smsc sca) (hda : AddrWire false da daf) (hvpf : fo / 8 % 4 = 1) (hv : ∀ x ∈ v0 :: vp, x < 256)
    (hfo : fo < 256) (hmti : fo % 4 = 1) (hmr : mr < 256) (hpid : pid < 256) (hdcs : dcs < 64)
    (hudl : udl < 256) (hud : ∀ x ∈ ud, x < 256) :
    decodeSmsPduOctets (submitWire sca fo mr daf pid dcs (v0 :: vp) udl ud) =
      (decodeUserData (vp ++ udl :: ud) v0 (alphabetOf dcs) (fo.testBit 6)).map fun u =>
        ⟨smsc, (submitWire sca fo mr daf pid dcs (v0 :: vp) udl ud).length - sca.length, .submit mr da pid .absent u⟩ := by
  have e : submitWire sca fo mr daf pid dcs (v0 :: vp) udl ud = sca ++ (fo :: mr :: daf ++ pid :: dcs :: ((v0 :: vp) ++ udl :: ud)) := by simp [submitWire]
  rw [e, submit_wire hs hda hfo hmti hmr hpid (by omega) (wire_lt hv hudl hud), hvpf]
  simp only [bind, Except.bind, List.cons_append, next, dcs_facts dcs hdcs, pure, Except.pure, decodeVp, show ¬ (1 = 2) by omega, show ¬ (1 = 3) by omega, if_false]
  cases decodeUserData (vp ++ udl :: ud) v0 (alphabetOf dcs) (fo.testBit 6) <;> rfl

-- the message "hi" with a validity in the enhanced format: the text becomes Greek delta and two "@"
example : decodeSmsPduOctets (submitWire [0] 0x09 7 [5, 0x91, 0x72, 0x21, 0xF3] 0 0 [3, 0x10, 0, 0, 0, 0, 0] 2 [0xE8, 0x34]) =
    .ok ⟨none, 19, .submit 7 (some py!"+27123") 0 .absent ⟨none, [916, 64, 64]⟩⟩ := by decide +kernel

end Gsm
