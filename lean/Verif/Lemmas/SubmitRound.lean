import Verif.Lemmas.Submit
import Verif.Props.Ucs2
import Verif.Props.Udh
namespace Gsm
open Spec

/-- `AddrOk smscField a b`: the address `a` can be sent, and `b` is what decoding gives. -/
inductive AddrOk [PyUnicode] (smscField : Bool) : PyStr → PyStr → Prop
  | phone {num ds} : Phone num ds → ds.length ≤ maxDigits smscField → AddrOk smscField num num
  | alpha {a os} : a ≠ [] → isDigitStr a = false → (∀ r, a = 43 :: r → isDigitStr r = false) →
      encodeGsm7 a = .ok os → 27 ∉ a → os.length ≤ 145 →
      AddrOk smscField a (trimAt (os.length % 8 = 0) a)

theorem addr_field [PyUnicode] {b : Bool} {a a' : PyStr} (h : AddrOk b a a') :
    ∃ f, encodeAddressField a b = .ok f ∧ (∀ x ∈ f, x < 256) ∧ f ≠ [] ∧
      ∀ rest, (∀ x ∈ rest, x < 256) → decodeAddressField (f ++ rest) b = .ok ((some a', f.length), rest) := by
  cases h with
  | phone h hl =>
    obtain ⟨f, h1, h2, h3, _⟩ := C09_phone_field h b hl []
    refine ⟨f, h1, h2, by rintro rfl; simp at h3, fun rest _ => ?_⟩
    obtain ⟨f', h1', _, _, h4⟩ := C09_phone_field h b hl rest
    rw [h1] at h1'; cases h1'
    exact h4
  | alpha h1 h2 h3 h4 h5 h6 =>
    obtain ⟨f, e1, e2, e3, _⟩ := C10_alpha_field h1 h2 h3 h4 h5 h6 b [] (by simp)
    refine ⟨f, e1, e2, by rintro rfl; simp at e3, fun rest hr => ?_⟩
    obtain ⟨f', e1', _, _, e4⟩ := C10_alpha_field h1 h2 h3 h4 h5 h6 b rest hr
    rw [e1] at e1'; cases e1'
    exact e4

/-- The SMSC argument and what decoding gives. -/
inductive SmscOk [PyUnicode] : Option PyStr → Option PyStr → Prop
  | absent : SmscOk none none
  | empty : SmscOk (some []) none
  | given {a a'} : AddrOk true a a' → SmscOk (some a) (some a')

theorem smsc_field [PyUnicode] {s s' : Option PyStr} (h : SmscOk s s') :
    ∃ f, smscField s = .ok f ∧ (∀ x ∈ f, x < 256) ∧
      ∀ rest, (∀ x ∈ rest, x < 256) → decodeAddressField (f ++ rest) true = .ok ((s', f.length), rest) := by
  cases h with
  | absent => exact ⟨[0], rfl, by simp, fun rest _ => rfl⟩
  | empty => exact ⟨[0], rfl, by simp, fun rest _ => rfl⟩
  | @given a a' h =>
    obtain ⟨f, h1, h2, _, h3⟩ := addr_field h
    refine ⟨f, ?_, h2, h3⟩
    unfold smscField
    cases a with
    | nil => cases h with
      | phone h => cases h <;> simp at *
      | alpha h => simp at h
    | cons c a => exact h1

/-- The validity argument and what decoding gives: the longest representable period that is not
longer, or the timestamp up to the second and the quarter of an hour of its offset. -/
inductive ValidityOk : Validity → DecodedValidity → Prop
  | none : ValidityOk .none .absent
  | relative {v : Timedelta} {x : Nat} : v.seconds < 86400 → 300 ≤ v.total → v.days ≤ 441 → x < 256 →
      (vpSeconds x : Int) ≤ v.total → (∀ y < 256, (vpSeconds y : Int) ≤ v.total → vpSeconds y ≤ vpSeconds x) →
      ValidityOk (.relative v) (.relative (.ofSeconds (vpSeconds x)))
  | absolute {d : DateTime} {off : Timedelta} : d.valid = true → 1969 ≤ d.year → d.year ≤ 2068 →
      d.off = some off → off.seconds < 86400 → -72000 < off.total → off.total < 72000 →
      ValidityOk (.absolute d)
        (.absolute { d with micro := 0, off := some (.ofSeconds (Int.tdiv off.total 900 * 900)) })

/-- TP-VPF. -/
def vbitsOf : Validity → Nat
  | .relative _ => 0x10
  | .absolute _ => 0x18
  | _ => 0

/-- The validity part of `decodeTpdu`. -/
def decodeVp (vpf : Nat) (it : List Nat) : Except PyErr (DecodedValidity × List Nat) :=
  if vpf = 0x02 then do
    let (x, it) ← next it
    let v ← decodeRelativeValidityPeriod x
    pure (DecodedValidity.relative v, it)
  else if vpf = 0x03 then do
    let (d, it) ← decodeTimestamp it
    pure (DecodedValidity.absolute d, it)
  else pure (DecodedValidity.absent, it)

theorem vpSeconds_inj : ∀ x < 256, ∀ y < 256, vpSeconds x = vpSeconds y → x = y := by
  have mono : ∀ x < 255, vpSeconds x < vpSeconds (x + 1) := by decide +kernel
  have mono' : ∀ d x, x + d + 1 < 256 → vpSeconds x < vpSeconds (x + d + 1) := by
    intro d
    induction d with
    | zero => intro x h; exact mono x (by omega)
    | succ d ih => intro x h; exact lt_trans (ih x (by omega)) (mono _ (by omega))
  intro x hx y hy h
  by_contra hne
  rcases Nat.lt_or_gt_of_ne hne with hlt | hlt
  · have := mono' (y - x - 1) x (by omega)
    rw [show x + (y - x - 1) + 1 = y by omega] at this; omega
  · have := mono' (x - y - 1) y (by omega)
    rw [show y + (x - y - 1) + 1 = x by omega] at this; omega

theorem validity_field [PyUnicode] {v : Validity} {dv : DecodedValidity} (h : ValidityOk v dv) :
    ∃ vpi vp, validityPart v = .ok (vbitsOf v, vpi) ∧ bytesOf vpi = .ok vp ∧ (∀ x ∈ vp, x < 256) ∧
      ∀ rest, decodeVp (vbitsOf v >>> 3) (vp ++ rest) = .ok (dv, rest) := by
  cases h with
  | none => exact ⟨[], [], rfl, rfl, by simp, fun _ => rfl⟩
  | @relative v x h1 h2 h3 h4 h5 h6 =>
    obtain ⟨y, hy, he, hle, hbest⟩ := C11_encode_best h1 h2 h3
    have : y = x := vpSeconds_inj y hy x h4 (le_antisymm (h6 y hy hle) (hbest x h4 h5))
    subst this
    refine ⟨[(y : Int)], [y], by simp [validityPart, he, bind, Except.bind, pure, Except.pure, vbitsOf], ?_, by simpa, ?_⟩
    · exact bytesOf_nat (os := [y]) (by simpa)
    · intro rest
      simp [decodeVp, vbitsOf, next, C11_decode, h4, bind, Except.bind, pure, Except.pure]
  | @absolute d off h1 h2 h3 h4 h5 h6 h7 =>
    obtain ⟨os, e1, e2, e3, _⟩ := C13_timestamp h1 h2 h3 h4 h5 h6 h7 []
    refine ⟨_, os, by simp [validityPart, e1, bind, Except.bind, pure, Except.pure, vbitsOf],
      bytesOf_nat e3, e3, fun rest => ?_⟩
    obtain ⟨os', e1', _, _, e4⟩ := C13_timestamp h1 h2 h3 h4 h5 h6 h7 rest
    rw [e1] at e1'; cases e1'
    simp [decodeVp, vbitsOf, e4, bind, Except.bind, pure, Except.pure]

theorem foOf_facts (v : Validity) (rd srr mp : Bool) :
    (foOf (vbitsOf v) rd srr mp) &&& 0x03 = 1 ∧
    ((foOf (vbitsOf v) rd srr mp) &&& 0x18) >>> 3 = vbitsOf v >>> 3 ∧
    decide (((foOf (vbitsOf v) rd srr mp) &&& 0x40) ≠ 0) = mp ∧ (foOf (vbitsOf v) rd srr mp) < 256 := by
  have : vbitsOf v = 0 ∨ vbitsOf v = 0x10 ∨ vbitsOf v = 0x18 := by cases v <;> simp [vbitsOf]
  rcases this with h | h | h <;> rw [h] <;> cases rd <;> cases srr <;> cases mp <;> decide

/-- Decoding of a SUBMIT assembled from decodable fields. -/
theorem decode_submit {sca da vp ud : List Nat} {smsc' : Option PyStr} {number' : Option PyStr} {n : Nat}
    {v : Validity} {dv : DecodedValidity} {rd srr mp : Bool} {mr pid dcs udl : Nat} {u : UserData}
    (hsca : ∀ rest, (∀ x ∈ rest, x < 256) → decodeAddressField (sca ++ rest) true = .ok ((smsc', sca.length), rest))
    (hda : ∀ rest, (∀ x ∈ rest, x < 256) → decodeAddressField (da ++ rest) = .ok ((number', n), rest))
    (hvp : ∀ rest, decodeVp (vbitsOf v >>> 3) (vp ++ rest) = .ok (dv, rest))
    (hda' : ∀ x ∈ da, x < 256) (hvp' : ∀ x ∈ vp, x < 256) (hud' : ∀ x ∈ ud, x < 256)
    (hmr : mr < 256) (hpid : pid < 256) (hdcs : dcs < 256) (hudl : udl < 256)
    (hud : decodeUserData ud udl (decodeDataCoding dcs) mp = .ok u) :
    decodeSmsPduOctets (SubmitFields.octets ⟨sca, foOf (vbitsOf v) rd srr mp, mr, da, pid, dcs, vp, udl, ud⟩) =
      .ok ⟨smsc', (SubmitFields.tpdu ⟨sca, foOf (vbitsOf v) rd srr mp, mr, da, pid, dcs, vp, udl, ud⟩).length,
        .submit mr number' pid dv u⟩ := by
  obtain ⟨f1, f2, f3, f4⟩ := foOf_facts v rd srr mp
  have hoct : ∀ x ∈ SubmitFields.tpdu ⟨sca, foOf (vbitsOf v) rd srr mp, mr, da, pid, dcs, vp, udl, ud⟩, x < 256 := by
    intro x hx
    simp only [SubmitFields.tpdu, List.mem_append, List.mem_cons, List.cons_append] at hx
    rcases hx with rfl | rfl | (h | rfl | rfl | h) | rfl | h
    · exact f4
    · exact hmr
    · exact hda' x h
    · exact hpid
    · exact hdcs
    · exact hvp' x h
    · exact hudl
    · exact hud' x h
  unfold decodeSmsPduOctets SubmitFields.octets
  rw [hsca _ hoct]
  simp only [bind, Except.bind]
  have hb : decodeTpdu (SubmitFields.tpdu ⟨sca, foOf (vbitsOf v) rd srr mp, mr, da, pid, dcs, vp, udl, ud⟩) =
      .ok (.submit mr number' pid dv u) := by
    have e : SubmitFields.tpdu ⟨sca, foOf (vbitsOf v) rd srr mp, mr, da, pid, dcs, vp, udl, ud⟩ =
        foOf (vbitsOf v) rd srr mp :: mr :: (da ++ (pid :: dcs :: (vp ++ (udl :: ud)))) := by
      simp [SubmitFields.tpdu]
    rw [e]
    have hrest : ∀ x ∈ (pid :: dcs :: (vp ++ (udl :: ud))), x < 256 := by
      intro x hx
      exact hoct x (by rw [e]; simp only [List.mem_cons, List.mem_append] at hx ⊢; tauto)
    unfold decodeTpdu
    simp only [next, bind, Except.bind, f1, f2, f3, pure, Except.pure, hda _ hrest]
    have := hvp (udl :: ud)
    unfold decodeVp at this
    simp only [next, bind, Except.bind, pure, Except.pure] at this
    simp only [show ¬ (1 = 0) by omega, if_false, if_true]
    generalize vbitsOf v >>> 3 = w at *
    by_cases h2 : w = 2
    · simp only [h2, if_true] at this ⊢
      match hh : vp ++ udl :: ud with
      | [] => simp at hh
      | y :: ys =>
        rw [hh] at this
        simp only at this
        cases hx : decodeRelativeValidityPeriod y with
        | error e => simp [hx] at this
        | ok w =>
          simp only [hx, Except.ok.injEq, Prod.mk.injEq] at this
          obtain ⟨rfl, rfl⟩ := this
          simp only [hx, hud]
    · by_cases h3 : w = 3
      · subst h3
        simp only [h2, if_false, if_true] at this ⊢
        cases hx : decodeTimestamp (vp ++ udl :: ud) with
        | error e => simp [hx] at this
        | ok w =>
          simp only [hx, Except.ok.injEq, Prod.mk.injEq] at this
          obtain ⟨rfl, h⟩ := this
          simp only [h, hud]
      · simp only [h2, h3, if_false, Except.ok.injEq, Prod.mk.injEq] at this ⊢
        obtain ⟨rfl, h⟩ := this
        simp only [h, hud]
  rw [hb]
  simp only [pure, Except.pure, List.length_append, Nat.cast_add, Except.ok.injEq, DecodedSms.mk.injEq, true_and,
    and_true]
  omega

/-! ### User data -/

theorem decodeUcs2_all : ∀ {t : List Nat} {n : Nat}, (∀ c ∈ t, c < 65536) → 2 * t.length ≤ n →
    decodeUcs2 (ucs2Octets t) n = (t, [])
  | [], 0, _, _ => by simp [ucs2Octets, decodeUcs2]
  | [], n + 1, _, _ => by simp [ucs2Octets, decodeUcs2]
  | c :: t, 0, _, h => by simp at h
  | c :: t, n + 1, hc, h => by
    have h0 := hc c (by simp)
    have e2 : ucs2Octets (c :: t) = c / 256 :: c % 256 :: (ucs2Octets t) := by simp [ucs2Octets]
    simp only [List.length_cons] at h
    rw [e2, decodeUcs2, decodeUcs2_all (fun x hx => hc x (by simp [hx])) (by omega), shl8_or (by omega)]
    simp; omega

theorem userData_gsm7 {t os : List Nat} (ht : t ≠ []) (hesc : 27 ∉ t) (h : encodeGsm7 t = .ok os)
    (hl : os.length < 256) :
    ∃ body, userDataPart 0 t [] = .ok (os.length :: body) ∧ (∀ x ∈ body, x < 256) ∧
      body.length = (7 * os.length + 7) / 8 ∧
      decodeUserData body os.length 0 false = .ok ⟨none, trimAt (os.length % 8 = 0) t⟩ := by
  have hos := encodeGsm7_ne_nil h ht
  have h7 := encodeGsm7_lt h
  obtain ⟨out, hp, hlt, _, hlen⟩ := C03_pack_stream (p := 0) (by omega) (fun _ => hos) h7
  have hlen' : out.length = (7 * os.length + 7) / 8 := by simpa [fillBits] using hlen
  refine ⟨out, ?_, hlt, hlen', ?_⟩
  · simp [userDataPart, h, hp, byteOf_ok hl, bind, Except.bind, pure, Except.pure]
  · have := List.length_pos_iff.2 hos
    have hu := (C04_unpack_pack hos h7 hp (rest := []) (by simp)).2.1 os.length (by omega)
    simp only [decodeUserData, decodeUserText, if_true, hu, decode_trim h hesc, bind, Except.bind, pure, Except.pure,
      Bool.false_eq_true, if_false]

theorem userData_ucs2 {t : List Nat} (h : ∀ c ∈ t, c < 65536) (hl : 2 * t.length < 256) :
    userDataPart 8 t [] = .ok (2 * t.length :: ucs2Octets t) ∧
      decodeUserData (ucs2Octets t) (2 * t.length) 2 false = .ok ⟨none, t⟩ := by
  constructor
  · simp only [userDataPart, encodeUcs2_ok h, bind, Except.bind, pure, Except.pure, List.length_nil, gt_iff_lt,
      lt_self_iff_false, if_false, length_ucs2Octets, show ¬ (8 = 0) by omega, byteOf_ok hl]
  · simp [decodeUserData, decodeUserText, decodeUcs2_all h (le_refl _), bind, Except.bind, pure, Except.pure]

/-- The concatenation header of a submitted part. -/
def concatUdh (r n i : Nat) : List Nat := [0x00, 3, r, n, i]

/-- The element it decodes to. -/
def concatIE (r n i : Nat) : IE := ⟨0x00, 3, [r, n, i], .concatenation r n i⟩

theorem concat_ok {r n i : Nat} (hr : r < 256) (hn : n < 256) (hi : i < 256) :
    encodeConcatenation r n i = .ok (concatUdh r n i) := by
  obtain ⟨os, h, e, _⟩ := C14_concatenation r n i (by omega) hn hi []
  rw [h, e, if_pos hr]; rfl

theorem udhLoop_concat (r n i : Nat) (rest : List Nat) :
    decodeUdhLoop 5 5 0 (0x00 :: 3 :: r :: n :: i :: rest) = .ok ([concatIE r n i], rest) :=
  C14_decode_header (es := [⟨0, [r, n, i]⟩]) (ies := [concatIE r n i]) (.cons .concat8 .nil) rest

theorem userData_gsm7_part {t os : List Nat} {r n i : Nat} (ht : t ≠ []) (hesc : 27 ∉ t)
    (h : encodeGsm7 t = .ok os)
    (hl : os.length + 7 < 256) (hr : r < 256) (hn : n < 256) (hi : i < 256) :
    ∃ body, userDataPart 0 t (concatUdh r n i) = .ok ((os.length + 7) :: 5 :: concatUdh r n i ++ body) ∧
      (∀ x ∈ body, x < 256) ∧ body.length = (7 * os.length + 8) / 8 ∧
      decodeUserData (5 :: concatUdh r n i ++ body) (os.length + 7) 0 true =
        .ok ⟨some [concatIE r n i], trimAt (os.length % 8 = 1) t⟩ := by
  have h7 := encodeGsm7_lt h
  have hos := List.length_pos_iff.2 (encodeGsm7_ne_nil h ht)
  obtain ⟨out, hp, hlt, _, hlen⟩ := C03_pack_stream (os := os) (p := 6) (by omega) (by omega) h7
  have hlen' : out.length = (7 * os.length + 8) / 8 := by
    rw [hlen, show fillBits 6 = 1 from rfl]; omega
  refine ⟨out, ?_, hlt, hlen', ?_⟩
  · have e1 : (concatUdh r n i).length = 5 := rfl
    have b1 : byteOf ((os.length + 7 : Nat) : Int) = .ok (os.length + 7) := byteOf_ok hl
    have b2 : byteOf ((5 : Nat) : Int) = .ok 5 := rfl
    simp only [userDataPart, h, e1, hp, bind, Except.bind, pure, Except.pure, if_true,
      show (5 : Nat) > 0 by omega, show (5 + 1) * 8 % 7 = 6 by rfl, show (6 : Nat) > 0 by omega,
      show os.length + 1 + 5 + 1 = os.length + 7 by omega, b1, b2]
  · match out, hlt, hlen', hp with
    | [], _, hlen', _ => simp at hlen'
    | first :: out, hlt, hlen', hp =>
      simp only [List.length_cons] at hlen'
      have hu := C04_unpack_pack_fill (p := 6) (by omega) (by omega) h7 hp (n := os.length + 7) (by omega) (by omega)
      have hc : (7 * os.length + 7 - 6) % 8 = 0 ↔ os.length % 8 = 1 := by omega
      simp only [hc] at hu
      have e : 5 :: concatUdh r n i ++ first :: out = 5 :: 0x00 :: 3 :: r :: n :: i :: (first :: out) := rfl
      rw [e]
      simp only [decodeUserData, next, if_true, udhLoop_concat, bind, Except.bind]
      simp only [decodeUserText, next, if_true, bind, Except.bind, show (5 + 1) * 8 % 7 + 1 = 6 + 1 by rfl, hu,
        decode_trim h hesc, pure, Except.pure]

theorem userData_ucs2_part {t : List Nat} {r n i : Nat} (h : ∀ c ∈ t, c < 65536)
    (hl : 2 * t.length + 6 < 256) :
    userDataPart 8 t (concatUdh r n i) = .ok ((2 * t.length + 6) :: 5 :: concatUdh r n i ++ ucs2Octets t) ∧
      decodeUserData (5 :: concatUdh r n i ++ ucs2Octets t) (2 * t.length + 6) 2 true =
        .ok ⟨some [concatIE r n i], t⟩ := by
  constructor
  · have e1 : (concatUdh r n i).length = 5 := rfl
    have b1 : byteOf ((2 * t.length + 5 + 1 : Nat) : Int) = .ok (2 * t.length + 6) := byteOf_ok hl
    have b2 : byteOf ((5 : Nat) : Int) = .ok 5 := rfl
    simp only [userDataPart, encodeUcs2_ok h, e1, bind, Except.bind, pure, Except.pure, length_ucs2Octets,
      show ¬ (8 = 0) by omega, show (5 : Nat) > 0 by omega, if_true, if_false, b1, b2]
  · have e : 5 :: concatUdh r n i ++ ucs2Octets t = 5 :: 0x00 :: 3 :: r :: n :: i :: (ucs2Octets t) := rfl
    rw [e]
    simp only [decodeUserData, next, if_true, udhLoop_concat, bind, Except.bind]
    simp only [decodeUserText, decodeUcs2_all h (show 2 * t.length ≤ 2 * t.length + 6 by omega), pure, Except.pure,
      show ¬ (2 = 0) by omega, if_true, if_false]

end Gsm
