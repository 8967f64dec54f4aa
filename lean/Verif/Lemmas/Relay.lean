import Verif.Spec.Relay
import Verif.Props.SubmitRound
import Verif.Props.ModemReading
import Verif.Props.ModemDelivery
import Verif.Props.ModemWrite
import Verif.Props.ModemSend
import Verif.Props.Hex
import Verif.Lemmas.Deliver
/-! # Lemmas: the way of a message -/
namespace Gsm
open Spec

/-! ### Reading the fields of an SMS-SUBMIT -/

theorem append_len_inj {α} {a b c d : List α} (h : a ++ b = c ++ d) (hl : a.length = c.length) : a = c ∧ b = d :=
  List.append_inj h hl

theorem submit_read_unique {os : List Nat} {f g : SubmitFields} (hf : SubmitRead os f) (hg : SubmitRead os g) : f = g := by
  obtain ⟨f1, _, ⟨n, xs, f3, f4⟩, ⟨m, t, ys, f5, f6⟩, f7⟩ := hf
  obtain ⟨g1, _, ⟨n', xs', g3, g4⟩, ⟨m', t', ys', g5, g6⟩, g7⟩ := hg
  rw [f1] at g1
  cases f with | mk sca fo mr da pid dcs vp udl ud =>
  cases g with | mk sca' fo' mr' da' pid' dcs' vp' udl' ud' =>
  dsimp only at *
  subst f3 f5 g3 g5
  simp only [SubmitFields.octets, SubmitFields.tpdu, List.cons_append, List.append_assoc] at g1
  obtain ⟨rfl, k0⟩ := List.cons.inj g1
  obtain ⟨rfl, k1⟩ := append_len_inj k0 (by omega)
  obtain ⟨rfl, k2⟩ := List.cons.inj k1
  obtain ⟨rfl, k3⟩ := List.cons.inj k2
  obtain ⟨rfl, k4⟩ := List.cons.inj k3
  obtain ⟨rfl, k5⟩ := List.cons.inj k4
  obtain ⟨rfl, k6⟩ := append_len_inj k5 (by omega)
  obtain ⟨rfl, k7⟩ := List.cons.inj k6
  obtain ⟨rfl, k8⟩ := List.cons.inj k7
  obtain ⟨rfl, k9⟩ := append_len_inj k8 (by omega)
  obtain ⟨rfl, rfl⟩ := List.cons.inj k9
  rfl

theorem address_field_shape [PyUnicode] {a : PyStr} {f : List Nat} (h : encodeAddressField a = .ok f) :
    ∃ n toa xs, f = n :: toa :: xs ∧ xs.length = (n + 1) / 2 := by
  unfold encodeAddressField at h
  simp only [except_bind_ok] at h
  obtain ⟨⟨toa, ad, al⟩, h1, h⟩ := h
  dsimp only at h
  cases al with
  | true =>
    simp only [if_true, except_bind_ok, pure, Except.pure, Except.ok.injEq] at h
    obtain ⟨se, _, v, _, n, h4, rfl⟩ := h
    refine ⟨_, _, _, rfl, ?_⟩
    have := byteOf_eq_ok.1 h4
    omega
  | false =>
    simp only [Bool.false_eq_true, if_false, except_bind_ok, pure, Except.pure, Except.ok.injEq] at h
    obtain ⟨v, h3, n, h4, rfl⟩ := h
    refine ⟨_, _, _, rfl, ?_⟩
    have h5 := byteOf_eq_ok.1 h4
    unfold encodeSemiOctets at h3
    have h6 := semiOctetPairs_length h3
    split at h6 <;> (try simp only [List.length_append, List.length_singleton] at h6) <;> omega

/-! ### One part -/

/-- What the receiver's modem gets of these octets has the user data `u`. -/
def DeliversAs (octets : List Nat) (u : UserData) : Prop :=
  ∀ smsc sender time os, Relayed octets smsc sender time os → ∃ len, decodeSmsPduOctets os = .ok ⟨smsc, len, .deliver sender 0 time u⟩

theorem part_relay [PyUnicode] {number number' text : PyStr} {r : Nat} {srr rd flash mp : Bool} {alphabet : Nat} {parts : Option Nat} {i : Nat}
    {udh : List Nat} {ptext : PyStr} {udl : Nat} {ud : List Nat} {u : UserData}
    (hnum : AddrOk false number number') (hr : r < 256)
    (hpart : PartOf r text alphabet parts i udh ptext)
    (hud : userDataPart alphabet ptext udh = .ok (udl :: ud)) (hud' : ∀ x ∈ ud, x < 256) (hudl : udl < 256)
    (halpha : alphabet = 0 ∨ alphabet = 8)
    (hdec : decodeUserData ud udl (if alphabet = 0 then 0 else 2) mp = .ok u) :
    ∃ p, submitPart number text r none flash (foOf 0 rd srr mp) [] alphabet parts i = .ok p ∧ (∀ x ∈ p.data, x < 256) ∧ DeliversAs p.data u := by
  obtain ⟨da, a1, a2, _, _⟩ := addr_field hnum
  have hdcs : dcsOf flash alphabet < 256 ∧ decodeDataCoding (dcsOf flash alphabet) = if alphabet = 0 then 0 else 2 := by
    rcases halpha with rfl | rfl <;> cases flash <;> decide
  have hfo : foOf 0 rd srr mp < 256 ∧ foOf 0 rd srr mp % 4 = 1 ∧ foOf 0 rd srr mp / 8 % 4 = 0 ∧ (foOf 0 rd srr mp).testBit 6 = mp := by
    cases rd <;> cases srr <;> cases mp <;> decide
  have e : ([0] ++ foOf 0 rd srr mp :: r :: da ++ 0 :: dcsOf flash alphabet :: [] ++ udl :: ud) =
    SubmitFields.octets ⟨[0], foOf 0 rd srr mp, r, da, 0, dcsOf flash alphabet, [], udl, ud⟩ := by
    simp [SubmitFields.octets, SubmitFields.tpdu]
  refine ⟨_, submitPart_ok_iff.2 ⟨[0], r, da, [], udh, ptext, _, rfl, hpart, byteOf_ok hr, a1, rfl, hud, rfl⟩, ?_, ?_⟩
  · intro x hx
    simp only [List.mem_append, List.mem_cons, List.not_mem_nil, or_false] at hx
    rcases hx with ((rfl | rfl | rfl | h) | rfl | rfl) | rfl | h
    any_goals omega
    · exact a2 x h
    · exact hud' x h
  · intro smsc sender time os hrel
    dsimp only at hrel
    rw [e] at hrel
    obtain @⟨f, sca, fo, oa, scts, h1, h2, h3, h4, h5, h6, h7⟩ := hrel
    have hF : SubmitRead (SubmitFields.octets ⟨[0], foOf 0 rd srr mp, r, da, 0, dcsOf flash alphabet, [], udl, ud⟩)
        ⟨[0], foOf 0 rd srr mp, r, da, 0, dcsOf flash alphabet, [], udl, ud⟩ :=
      ⟨rfl, hfo.2.1, ⟨0, [], rfl, rfl⟩, address_field_shape a1, by simp [vpOctets, hfo.2.2.1]⟩
    cases submit_read_unique h1 hF
    dsimp only at h7 ⊢
    refine ⟨_, deliver_assemble h2 h3 h4 h5 h6 (by omega) hdcs.1 hudl hud' ?_⟩
    rw [hdcs.2, h7, hfo.2.2.2]
    exact hdec

/-! ### Whole messages -/

theorem relay_gsm7 [PyUnicode] {number number' text os : PyStr} {r : Nat} (flash : Bool)
    (hnum : AddrOk false number number') (hr : r < 256)
    (hne : text ≠ []) (hesc : 27 ∉ text) (henc : encodeGsm7 text = .ok os)
    (hlen : text.length ≤ 160) (hos : os.length < 256) :
    ∃ p, encodeSmsSubmitPdu number text r (sendFlash := flash) = .ok [p] ∧ (∀ x ∈ p.data, x < 256) ∧
      DeliversAs p.data ⟨none, trimAt (os.length % 8 = 0) text⟩ := by
  obtain ⟨body, b1, b2, _, b3⟩ := userData_gsm7 hne hesc henc hos
  have hp : partsOf text 0 = none := by unfold partsOf maxMessageLength; rw [if_neg]; simp; omega
  obtain ⟨p, h1, h2⟩ := part_relay (srr := true) (rd := false) (flash := flash) (mp := false) (i := 0) (parts := none)
    (text := text) hnum hr ⟨rfl, rfl⟩ b1 b2 hos (.inl rfl) b3
  refine ⟨p, encodeSmsSubmitPdu_ok_iff.2 ⟨_, _, 0, rfl, by simp [chooseAlphabet, henc], ?_⟩, h2⟩
  rw [hp]
  exact .cons h1 .nil

theorem relay_ucs2 [PyUnicode] {number number' text : PyStr} {r : Nat} (flash : Bool)
    (hnum : AddrOk false number number') (hr : r < 256)
    (henc : encodeGsm7 text = .error .valueError) (hbmp : ∀ c ∈ text, c < 65536) (hlen : text.length ≤ 70) :
    ∃ p, encodeSmsSubmitPdu number text r (sendFlash := flash) = .ok [p] ∧ (∀ x ∈ p.data, x < 256) ∧ DeliversAs p.data ⟨none, text⟩ := by
  obtain ⟨b1, b3⟩ := userData_ucs2 hbmp (by omega)
  have hp : partsOf text 8 = none := by unfold partsOf maxMessageLength; rw [if_neg]; simp; omega
  obtain ⟨p, h1, h2⟩ := part_relay (srr := true) (rd := false) (flash := flash) (mp := false) (i := 0) (parts := none)
    (text := text) hnum hr ⟨rfl, rfl⟩ b1 (ucs2Octets_lt hbmp) (by omega) (.inr rfl) b3
  refine ⟨p, encodeSmsSubmitPdu_ok_iff.2 ⟨_, _, 8, rfl, by simp [chooseAlphabet, henc], ?_⟩, h2⟩
  rw [hp]
  exact .cons h1 .nil

theorem relay_gsm7_parts [PyUnicode] {number number' text os : PyStr} {r : Nat} (flash : Bool)
    (hnum : AddrOk false number number') (hr : r < 256)
    (hesc : 27 ∉ text) (henc : encodeGsm7 text = .ok os) (hlen : 160 < text.length)
    (hn : text.length / 160 + 1 < 256)
    (hfit : ∀ i osi, encodeGsm7 (slice 153 text i) = .ok osi → osi.length ≤ 248) :
    ∃ ps, encodeSmsSubmitPdu number text r (sendFlash := flash) = .ok ps ∧
      List.Forall₂ (fun i p => (∀ x ∈ p.data, x < 256) ∧ ∃ osi, encodeGsm7 (slice 153 text i) = .ok osi ∧
        DeliversAs p.data ⟨some [concatIE r (text.length / 160 + 1) (i + 1)], trimAt (osi.length % 8 = 1) (slice 153 text i)⟩)
        (List.range (text.length / 160 + 1)) ps := by
  have hp : partsOf text 0 = some (text.length / 160 + 1) := by
    unfold partsOf maxMessageLength; simp; omega
  generalize hN : text.length / 160 + 1 = N at *
  have key : ∀ i < N, ∃ p, submitPart number text r none flash (foOf 0 false true true) [] 0 (some N) i = .ok p ∧
      (∀ x ∈ p.data, x < 256) ∧ ∃ osi, encodeGsm7 (slice 153 text i) = .ok osi ∧
        DeliversAs p.data ⟨some [concatIE r N (i + 1)], trimAt (osi.length % 8 = 1) (slice 153 text i)⟩ := by
    intro i hi
    obtain ⟨osi, ho⟩ := encode_slice henc 153 i
    have hs : slice 153 text i ≠ [] := slice_ne_nil (L := 160) (by omega) (by omega) hlen (by omega)
    have hes : 27 ∉ slice 153 text i := fun h => hesc (List.mem_of_mem_drop (List.mem_of_mem_take h))
    have hos := hfit i osi ho
    obtain ⟨body, b1, b2, _, b3⟩ := userData_gsm7_part (r := r) (n := N) (i := i + 1) hs hes ho
      (by omega) hr hn (by omega)
    obtain ⟨p, h1, h2, h3⟩ := part_relay (srr := true) (rd := false) (flash := flash) (mp := true) (i := i)
      (parts := some N) (udh := concatUdh r N (i + 1)) (ptext := slice 153 text i)
      (text := text) hnum hr ⟨concat_ok hr hn (by omega), rfl⟩ b1
      (concat_octets hr hn (by omega) (b2)) (by omega) (.inl rfl) b3
    exact ⟨p, h1, h2, osi, ho, h3⟩
  obtain ⟨ps, hps, hl⟩ := forall₂_range key
  refine ⟨ps, encodeSmsSubmitPdu_ok_iff.2 ⟨_, _, 0, rfl, by simp [chooseAlphabet, henc], ?_⟩, ?_⟩
  · rw [hp]; exact hps.imp (fun _ _ h => h.1)
  · exact hps.imp (fun _ _ h => h.2)

theorem relay_ucs2_parts [PyUnicode] {number number' text : PyStr} {r : Nat} (flash : Bool)
    (hnum : AddrOk false number number') (hr : r < 256)
    (henc : encodeGsm7 text = .error .valueError) (hbmp : ∀ c ∈ text, c < 65536) (hlen : 70 < text.length)
    (hn : text.length / 70 + 1 < 256) :
    ∃ ps, encodeSmsSubmitPdu number text r (sendFlash := flash) = .ok ps ∧
      List.Forall₂ (fun i p => (∀ x ∈ p.data, x < 256) ∧
        DeliversAs p.data ⟨some [concatIE r (text.length / 70 + 1) (i + 1)], slice 67 text i⟩)
        (List.range (text.length / 70 + 1)) ps := by
  have hp : partsOf text 8 = some (text.length / 70 + 1) := by
    unfold partsOf maxMessageLength; simp; omega
  generalize hN : text.length / 70 + 1 = N at *
  have key : ∀ i < N, ∃ p, submitPart number text r none flash (foOf 0 false true true) [] 8 (some N) i = .ok p ∧
      (∀ x ∈ p.data, x < 256) ∧ DeliversAs p.data ⟨some [concatIE r N (i + 1)], slice 67 text i⟩ := by
    intro i hi
    have hb : ∀ c ∈ slice 67 text i, c < 65536 :=
      fun c hc => hbmp c (List.mem_of_mem_drop (List.mem_of_mem_take hc))
    have hsl : (slice 67 text i).length ≤ 67 := by simp [slice]
    obtain ⟨b1, b3⟩ := userData_ucs2_part (r := r) (n := N) (i := i + 1) hb (by omega)
    exact part_relay (srr := true) (rd := false) (flash := flash) (mp := true) (i := i)
      (parts := some N) (udh := concatUdh r N (i + 1)) (ptext := slice 67 text i)
      (text := text) hnum hr ⟨concat_ok hr hn (by omega), rfl⟩ b1
      (concat_octets hr hn (by omega) (ucs2Octets_lt hb)) (by omega) (.inr rfl) b3
  obtain ⟨ps, hps, hl⟩ := forall₂_range key
  refine ⟨ps, encodeSmsSubmitPdu_ok_iff.2 ⟨_, _, 8, rfl, by simp [chooseAlphabet, henc], ?_⟩, ?_⟩
  · rw [hp]; exact hps.imp (fun _ _ h => h.1)
  · exact hps.imp (fun _ _ h => h.2)

/-! ### What the modem takes over -/

/-- The message of a command that ends with Ctrl-Z. -/
def beforeCtrlZ (c : PyStr) : Option PyStr := if c.getLast? = some 26 then some c.dropLast else none

theorem ctrlZ_some {m : PyStr} : beforeCtrlZ (m ++ [26]) = some m := by simp [beforeCtrlZ]

theorem ctrlZ_cr {m : PyStr} : beforeCtrlZ (m ++ [13]) = none := by
  unfold beforeCtrlZ; rw [List.getLast?_append]; simp

theorem ctrlZ_none {c : PyStr} (h : beforeCtrlZ c = none) : ¬ ∃ m, c = m ++ [26] := by
  rintro ⟨m, rfl⟩; rw [ctrlZ_some] at h; cases h

theorem ctrlZ_eq {c m : PyStr} (h : beforeCtrlZ c = some m) : c = m ++ [26] := by
  unfold beforeCtrlZ at h
  split at h
  · rename_i hc
    cases h
    exact (List.dropLast_append_getLast? 26 hc).symm
  · cases h

section
variable {reply : List PyStr → Reply}

theorem taken_unique {log ms ms' : List PyStr} (h : TakenOver reply log ms) (h' : TakenOver reply log ms') : ms = ms' := by
  induction h generalizing ms' with
  | nothing => cases h'; rfl
  | @taken log ms m h1 h2 ih =>
    generalize hc : (m ++ [26]) :: log = l at h'
    cases h' with
    | nothing => cases hc
    | @taken log' ms'' m' h3 h4 =>
      obtain ⟨e, rfl⟩ := List.cons.inj hc
      rw [ih h4, List.append_cancel_right e]
    | other h3 h4 =>
      obtain ⟨rfl, rfl⟩ := List.cons.inj hc
      exact absurd ⟨h1, m, rfl⟩ h3
  | other h1 h2 ih =>
    cases h' with
    | taken h3 h4 => exact absurd ⟨h3, _, rfl⟩ h1
    | other h3 h4 => exact ih h4

theorem taken_refused {c : PyStr} {old ms : List PyStr} (h : TakenOver reply old ms) : ∀ (k : Nat),
    (∀ i, i < k → ¬ Accepted reply (List.replicate (i + 1) c ++ old)) → TakenOver reply (List.replicate k c ++ old) ms
  | 0, _ => h
  | k + 1, hk => by
    rw [List.replicate_succ, List.cons_append]
    exact .other (fun hh => hk k (by omega) (by rw [List.replicate_succ, List.cons_append]; exact hh.1)) (taken_refused h k fun i hi => hk i (by omega))

theorem taken_transmission {cs old log : List PyStr} {ok : Bool} (ht : Transmission reply cs old log ok) : ∀ {ms}, TakenOver reply old ms →
    ∃ k ≤ cs.length, TakenOver reply log (ms ++ (cs.take k).filterMap beforeCtrlZ) ∧ (ok = true → k = cs.length) := by
  induction ht with
  | done => intro ms h; exact ⟨0, by simp, by simpa using h, by simp⟩
  | @next c cs old k log ok h1 h2 h3 _ ih =>
    intro ms h
    obtain ⟨j, rfl⟩ : ∃ j, k = j + 1 := ⟨k - 1, by omega⟩
    have hj := taken_refused (c := c) h j fun i hi => busy_not_accepted (h2 i (by omega))
    rw [List.replicate_succ, List.cons_append] at h3 ih
    have hk : TakenOver reply (c :: (List.replicate j c ++ old)) (ms ++ (beforeCtrlZ c).toList) := by
      cases hc : beforeCtrlZ c with
      | none => simpa using TakenOver.other (fun hh => ctrlZ_none hc hh.2) hj
      | some m =>
        cases ctrlZ_eq hc
        exact .taken h3 hj
    obtain ⟨n, hn, h5, h6⟩ := ih hk
    refine ⟨n + 1, by simpa using hn, ?_, fun hok => by simp [h6 hok]⟩
    rw [List.take_succ_cons, List.filterMap_cons]
    cases hc : beforeCtrlZ c with
    | none => simpa [hc] using h5
    | some m => simpa [hc] using h5
  | @stop c cs old k h1 h2 =>
    intro ms h
    refine ⟨0, by simp, ?_, fun h => by cases h⟩
    simp only [List.take_zero, List.filterMap_nil, List.append_nil]
    refine taken_refused h k fun i hi => ?_
    by_cases hik : i + 1 < k
    · exact busy_not_accepted (h1 i hik)
    · have : k = i + 1 := by omega
      rw [← this]; exact h2 (by omega)

end

theorem pdu_ctrlZ (p : Pdu) : (pduCommands p).filterMap beforeCtrlZ = [pduHex p.data] := by
  simp only [pduCommands, List.filterMap_cons, ctrlZ_cr, ctrlZ_some, List.filterMap_nil]

theorem pdus_ctrlZ : ∀ (ps : List Pdu) (k : Nat), ∃ j ≤ ps.length, ((ps.flatMap pduCommands).take k).filterMap beforeCtrlZ = (ps.take j).map (fun p => pduHex p.data) ∧
    (k = (ps.flatMap pduCommands).length → j = ps.length)
  | [], k => ⟨0, by simp, by simp, by simp⟩
  | p :: ps, k => by
    match k with
    | 0 => exact ⟨0, by simp, by simp, by simp [pduCommands]⟩
    | 1 => exact ⟨0, by simp, by show List.filterMap beforeCtrlZ [py!"AT+CMGS=" ++ decStr p.tpduLength ++ [13]] = []; simp only [List.filterMap_cons, ctrlZ_cr, List.filterMap_nil], by simp [pduCommands]⟩
    | k + 2 =>
      obtain ⟨j, h1, h2, h3⟩ := pdus_ctrlZ ps k
      refine ⟨j + 1, by simpa using h1, ?_, fun h => ?_⟩
      · have hp : ((p :: ps).flatMap pduCommands).take (k + 2) = pduCommands p ++ (ps.flatMap pduCommands).take k := by
          simp [pduCommands]
        rw [hp, List.filterMap_append, pdu_ctrlZ, h2]
        simp
      · simp [pduCommands] at h h3
        simp [h3 h]

/-! ### The receiving program -/

theorem write_agreed {env : Env} (hd : 0 < env.depth) {c : PyStr} {s : St} (h : Accepted env.reply ((c ++ [13]) :: s.log)) :
    ∃ ls, write c true [13] env s = (.ok ls, { s with log := (c ++ [13]) :: s.log }) := by
  obtain ⟨ls, line, h1, h2, h3, h4⟩ := h
  exact ⟨ls, C32_mapping hd h1 (.fine h2 h3 h4)⟩

theorem received_message {env : Env} {b : St} {line mem idx status : PyStr} {os : List Nat} {smsc sender : Option PyStr} {time : DateTime}
    {len : Int} {pid : Nat} {u : UserData} (hd : 0 < env.depth) (hm : b.smsTextMode = false) (hl : StoredAt py!"+CMTI:" line mem idx)
    (hs : Stores env.reply b mem idx status os) (ho : decodeSmsPduOctets os = .ok ⟨smsc, len, .deliver sender pid time u⟩) :
    ∃ b', handleSmsReceived line env b = (.ok (), b') ∧
      b'.callbacks = .smsReceived (.received (pduState status) sender time u.text smsc) :: b.callbacks := by
  obtain ⟨h1, ⟨l, h, rest, h2, h3, h4⟩, h5⟩ := hs
  have hg : rxGroups cmtiRegex line = some [mem, idx] := stored_iff.2 ⟨mem, idx, rfl, hl⟩
  have hpdu : parseCmgrPdu (l :: h :: (rest ++ [py!"OK"])) = .ok (.received (pduState status) sender time u.text smsc) :=
    (C68_pdu _ _).2 (.message h3 (by unfold decodeSmsPdu; rw [unhex_of h4]; exact ho))
  obtain ⟨b1, hb1, hb2, hb3, hb4⟩ : ∃ b1, setSmsMemory (some mem) none env b = (.ok (), b1) ∧ b1.log = chooseMemory b mem ++ b.log ∧
      b1.smsTextMode = false ∧ b1.callbacks = b.callbacks := by
    unfold setSmsMemory chooseMemory
    by_cases hc : b.smsMemReadDelete = some mem
    · exact ⟨b, by simp [run_bind, run_get, hc, run_pure], by simp [hc], hm, rfl⟩
    · obtain ⟨ls, hw⟩ := write_agreed (c := cpmsCmd mem) (s := b) hd (by simpa [cpmsCmd] using h1 hc)
      exact ⟨{ b with log := (cpmsCmd mem ++ [13]) :: b.log, smsMemReadDelete := some mem },
        by simp [run_bind, run_get, Ne.symm hc, hw, run_modify], by simp [hc, cpmsCmd], hm, rfl⟩
  obtain ⟨b2, hb⟩ : ∃ b2, b2 = { b1 with log := (cmgrCmd idx ++ [13]) :: b1.log } := ⟨_, rfl⟩
  have hb5 : b2.smsTextMode = false := by rw [hb]; exact hb3
  have hb6 : b2.callbacks = b1.callbacks := by rw [hb]
  have hw1 : write (cmgrCmd idx) true [13] env b1 = (.ok (l :: h :: (rest ++ [py!"OK"])), b2) := by
    rw [hb]; exact C32_mapping hd (by rw [hb2]; exact h2) (.fine (line := py!"OK") (by rw [← List.cons_append, ← List.cons_append, List.getLast?_append]; rfl) (by decide) (by decide))
  obtain ⟨ls, hw2⟩ := write_agreed (c := cmgdCmd idx) (s := b2) hd
    (by rw [hb]; simpa [cmgdCmd, cmgrCmd, hb2] using h5)
  have h0 : ∀ s, setSmsMemory none none env s = (.ok (), s) := fun _ => rfl
  refine ⟨_, by simp only [handleSmsReceived, hg, readStoredSms, deleteStoredSms, run_bind, hb1, hw1, run_get, hb5, Bool.false_eq_true, if_false, run_ofExcept, hpdu, h0, hw2, callback, run_modify, run_pure]; rfl, ?_⟩
  rw [← hb4, ← hb6]

theorem arrives {octets : List Nat} {u : UserData} (ho : ∀ x ∈ octets, x < 256) (h : DeliversAs octets u) : Arrives (pduHex octets) u.text := by
  intro octets' os smsc sender time hx hrel env b line mem idx status hd hm hl hs
  have : octets' = octets := by
    have h1 := unhex_of hx
    rw [unhex_of (C22_str_pdu ho).1] at h1
    exact (Option.some.inj h1).symm
  subst this
  obtain ⟨len, hd'⟩ := h _ _ _ _ hrel
  exact received_message hd hm hl hs hd'

end Gsm
