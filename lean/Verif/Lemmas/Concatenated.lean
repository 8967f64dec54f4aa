import Verif.Spec.Concatenated
import Verif.Lemmas.Relay
import Verif.Lemmas.Octets
import Verif.Props.Relay
/-! # Lemmas: parts of long messages -/
namespace Gsm
open Spec

variable {env : Env}

/-! ### Headers -/

theorem header_unique {m : PyStr} {r n i r' n' i' : Nat} (h : HeaderOf m r n i) (h' : HeaderOf m r' n' i') : r = r' ∧ n = n' ∧ i = i' := by
  obtain ⟨os, f, rest, h1, h2, _, h3⟩ := h
  obtain ⟨os', f', rest', h1', h2', _, h3'⟩ := h'
  have : os = os' := by have := unhex_of h1; rw [unhex_of h1'] at this; exact (Option.some.inj this).symm
  subst this
  rw [submit_read_unique h2 h2', h3'] at h3
  simp only [List.cons.injEq, true_and] at h3
  omega

theorem header_not_none {m : PyStr} {r n i : Nat} (h : HeaderOf m r n i) (h' : NoHeader m) : False := by
  obtain ⟨os, f, rest, h1, h2, h3, _⟩ := h
  obtain ⟨os', f', h1', h2', h3'⟩ := h'
  have : os = os' := by have := unhex_of h1; rw [unhex_of h1'] at this; exact (Option.some.inj this).symm
  subst this
  rw [submit_read_unique h2 h2', h3'] at h3
  cases h3

theorem forall₂_imp_mem {α β} {R S : α → β → Prop} {l : List α} {k : List β} (h : List.Forall₂ R l k)
    (hi : ∀ a b, a ∈ l → b ∈ k → R a b → S a b) : List.Forall₂ S l k := by
  induction h with
  | nil => exact .nil
  | cons h _ ih => exact .cons (hi _ _ (by simp) (by simp) h) (ih fun a b ha hb => hi a b (by simp [ha]) (by simp [hb]))

/-- The PDUs that the encoder makes of a message. -/
theorem encode_parts [PyUnicode] {number text : PyStr} {r : Int} {flash : Bool} {ps : List Pdu}
    (h : encodeSmsSubmitPdu number text r (sendFlash := flash) = .ok ps) : ∃ r' : Nat, r = r' ∧ r' < 256 ∧ PartsOf r' (ps.map fun p => pduHex p.data) := by
  have hn : ps ≠ [] := by rintro rfl; exact encode_ne_nil h
  have hoct : ∀ p ∈ ps, ∀ x ∈ p.data, x < 256 := encode_octets h
  obtain ⟨alphabet, _, _, h2⟩ := submit_inv h
  obtain ⟨p0, hp0⟩ := List.exists_mem_of_ne_nil ps hn
  obtain ⟨_, _, F0, _, _, _, _, hr0, hr1, _⟩ := forall₂_mem_right h2 hp0
  refine ⟨F0.mr, hr0, hr1, ?_⟩
  generalize F0.mr = r' at hr0 hr1
  subst hr0
  have hlen : ps.length = (partsOf text alphabet).getD 1 := by rw [← h2.length_eq, List.length_range]
  have hread : ∀ {p : Pdu} {F : SubmitFields}, IsSubmit number none .none p F → F.fo = foOf (vbitsOf .none) false true (partsOf text alphabet).isSome →
      SubmitRead p.data F ∧ F.fo.testBit 6 = (partsOf text alphabet).isSome := by
    rintro p F ⟨e1, e2, e3, e4⟩ hfo
    have : F.fo % 4 = 1 ∧ F.fo / 8 % 4 = 0 ∧ F.fo.testBit 6 = (partsOf text alphabet).isSome := by
      rw [hfo]; cases (partsOf text alphabet).isSome <;> decide
    exact ⟨⟨e1, this.1, ⟨0, [], (Except.ok.inj e2).symm, rfl⟩, address_field_shape e3, by rw [e4, vpOctets, this.2.1]; rfl⟩, this.2.2⟩
  cases hp : partsOf text alphabet with
  | none =>
    rw [hp] at hlen
    match ps, hlen with
    | [p], _ =>
      left
      obtain ⟨_, _, F, _, _, hF, hfo, _⟩ := forall₂_mem_right h2 (List.mem_singleton_self p)
      obtain ⟨k1, k2⟩ := hread hF hfo
      exact ⟨_, rfl, p.data, F, (C22_str_pdu (hoct p (by simp))).1, k1, by rw [k2, hp]; rfl⟩
  | some n =>
    right
    rw [hp] at hlen
    have h2n : 2 ≤ n := by
      unfold partsOf at hp
      split at hp
      · cases hp; rename_i h; have := h; unfold maxMessageLength at *; split at this <;> split <;> omega
      · cases hp
    simp only [Option.getD_some] at hlen
    rw [List.length_map]
    refine ⟨by omega, forall₂_map_right ?_⟩
    rw [hp] at h2
    simp only [Option.getD_some] at h2
    rw [hlen]
    refine forall₂_imp_mem h2 ?_
    rintro i p hi hpm ⟨F, udh, ptext, hF, hfo, hr, _, _, _, _, hpart, hud, _⟩
    obtain ⟨k1, k2⟩ := hread hF (by rw [hp]; exact hfo)
    rw [hp] at k2
    obtain ⟨hc, _⟩ := hpart
    have hb : n < 256 ∧ i + 1 < 256 := by
      by_cases hb : n < 256 ∧ i + 1 < 256
      · exact hb
      · rw [C14_concatenation_reject r' n (i + 1 : Nat) (by omega)] at hc; cases hc
    rw [concat_ok hr1 hb.1 hb.2] at hc
    cases hc
    obtain ⟨udl, body, he, _⟩ := userDataPart_ok hud
    obtain ⟨_, he⟩ := List.cons.inj he
    exact ⟨p.data, F, body, (C22_str_pdu (hoct p hpm)).1, k1, k2, he⟩

/-! ### Sending -/

theorem transmission_last {reply : List PyStr → Reply} {cs old log : List PyStr} {ok : Bool} (h : Transmission reply cs old log ok) (hok : ok = true) (hc : cs ≠ []) :
    ∃ c log', cs.getLast? = some c ∧ log = c :: log' ∧ Accepted reply log := by
  induction h with
  | done => exact absurd rfl hc
  | @next c cs old k log ok h1 h2 h3 h4 ih =>
    cases hcs : cs with
    | nil =>
      subst hcs
      cases h4
      obtain ⟨j, rfl⟩ : ∃ j, k = j + 1 := ⟨k - 1, by omega⟩
      exact ⟨c, List.replicate j c ++ old, rfl, by rw [List.replicate_succ, List.cons_append], h3⟩
    | cons c' cs' =>
      obtain ⟨d, l, k1, k2⟩ := ih hok (by simp [hcs])
      exact ⟨d, l, by rw [← hcs, List.getLast?_cons, k1]; rfl, k2⟩
  | stop => cases hok

theorem taken_head {reply : List PyStr → Reply} {m : PyStr} {log ms : List PyStr} (ha : Accepted reply ((m ++ [26]) :: log))
    (ht : TakenOver reply ((m ++ [26]) :: log) ms) : ∃ ms', ms = ms' ++ [m] ∧ TakenOver reply log ms' := by
  generalize hc : (m ++ [26]) :: log = l at ht
  cases ht with
  | nothing => cases hc
  | @taken log' ms' m' h1 h2 =>
    obtain ⟨e, rfl⟩ := List.cons.inj hc
    rw [List.append_cancel_right e]
    exact ⟨ms', rfl, h2⟩
  | other h1 h2 =>
    obtain ⟨rfl, rfl⟩ := List.cons.inj hc
    exact absurd ⟨ha, m, rfl⟩ h1

/-- The state after a message has been sent. -/
theorem send_state [PyUnicode] {destination text : PyStr} {flash : Bool} {s s' : St} {i : Nat} {pdus : List Pdu} (hm : s.smsTextMode = false)
    (he : encodeSmsSubmitPdu destination text s.smsRef (sendFlash := flash) = .ok pdus) (hs : sendSms destination text flash env s = (.ok i, s')) :
    ∃ line r, cmgsLine (lastAnswer env s'.log) = some line ∧ pyInt (line.drop 7) = .ok r ∧ s'.smsRef = (if r + 1 > 255 then 0 else r + 1) ∧
      s'.smsTextMode = false ∧ Transmission env.reply (pdus.flatMap pduCommands) s.log s'.log true := by
  have hx : sendCommands destination text flash s env s = sendPdus pdus none env s := by
    simp [sendCommands, hm, he, run_bind, run_ofExcept]
  obtain ⟨ok, h1, ⟨l, w, h2⟩, h3, h4⟩ := sendPdus_spec (env := env) pdus none s
  rw [sendSms_eq, run_bind, hx] at hs
  cases hp : sendPdus pdus none env s with
  | mk x s1 =>
    rw [hp] at h1 h2 h3 h4 hs
    dsimp only at h1 h2 h3 h4 hs
    cases ok with
    | false => obtain ⟨e, rfl⟩ := h3 rfl; cases hs
    | true =>
      have hn : pdus ≠ [] := by rintro rfl; exact encode_ne_nil he
      have hx := h4 rfl
      rw [if_neg hn] at hx
      subst hx
      dsimp only at hs
      cases hc : cmgsLine (lastAnswer env s1.log) with
      | none => rw [hc] at hs; cases hs
      | some line =>
        rw [hc] at hs
        simp only [sendFinish, run_bind, run_ofExcept] at hs
        cases hi : pyInt (line.drop 7) with
        | error e => rw [hi] at hs; cases hs
        | ok r =>
          rw [hi] at hs
          simp only [recordSent, run_modify, run_pure] at hs
          cases hs
          exact ⟨line, r, hc, hi, rfl, by rw [h2]; exact hm, h1⟩

/-- A message that has been sent brings the program into step. -/
theorem send_into_step [PyUnicode] {destination text : PyStr} {flash : Bool} {s s' : St} {i c : Nat} {ms : List PyStr} (hn : NumbersFrom env.reply c)
    (hm : s.smsTextMode = false) (ht : TakenOver env.reply s.log ms) (hs : sendSms destination text flash env s = (.ok i, s')) :
    ∃ parts, InStep env.reply c s' (ms ++ parts) := by
  cases he : encodeSmsSubmitPdu destination text s.smsRef (sendFlash := flash) with
  | error e => rw [C38_not_encodable hm he] at hs; cases hs
  | ok pdus =>
    obtain ⟨n, _, h4, h5⟩ := C79_submitted (envA := env) hm he ht
    have := h5 ⟨i, by rw [hs]⟩
    subst this
    rw [hs, List.take_length] at h4
    dsimp only at h4
    refine ⟨_, ?_, h4, ?_⟩
    · obtain ⟨_, _, _, _, _, h, _⟩ := send_state hm he hs; exact h
    · obtain ⟨line, r, a1, a2, a3, _, a4⟩ := send_state hm he hs
      have hne : pdus ≠ [] := by rintro rfl; exact encode_ne_nil he
      obtain ⟨ini, p, rfl⟩ : ∃ ini p, pdus = ini ++ [p] := ⟨_, _, (List.dropLast_append_getLast hne).symm⟩
      obtain ⟨cmd, log', b1, b2, b3⟩ := transmission_last a4 rfl (by simp [pduCommands])
      have hcmd : cmd = pduHex p.data ++ [26] := by
        rw [List.flatMap_append, List.getLast?_append] at b1
        simp [pduCommands] at b1
        exact b1.symm
      subst hcmd
      rw [b2] at b3 h4 a1
      obtain ⟨ms', c1, c2⟩ := taken_head b3 h4
      obtain ⟨ls, d1, d2⟩ := hn c2 b3
      have : cmgsLine (lastAnswer env ((pduHex p.data ++ [26]) :: log')) = some (py!"+CMGS: " ++ decStr ((c + ms'.length) % 256)) := by
        unfold lastAnswer; rw [d1]; exact d2
      rw [this] at a1
      cases a1
      have e7 : (py!"+CMGS: " ++ decStr ((c + ms'.length) % 256)).drop 7 = decStr ((c + ms'.length) % 256) := rfl
      rw [e7] at a2
      have hint : pyInt (decStr ((c + ms'.length) % 256)) = .ok (((c + ms'.length) % 256 : Nat) : Int) := by
        unfold pyInt; rw [pyInt_decStr]
      rw [hint] at a2
      cases a2
      have hl := congrArg List.length c1
      simp only [List.length_append, List.length_map, List.length_singleton] at hl ⊢
      rw [a3]
      split <;> omega

/-- In step with the modem, sending a message keeps the program in step. -/
theorem send_in_step [PyUnicode] {destination text : PyStr} {flash : Bool} {s s' : St} {i c : Nat} {ms : List PyStr} (hn : NumbersFrom env.reply c)
    (h : InStep env.reply c s ms) (hs : sendSms destination text flash env s = (.ok i, s')) :
    ∃ parts, InStep env.reply c s' (ms ++ parts) ∧ PartsOf ((c + ms.length) % 256) parts ∧
      (∀ ds, Phone destination ds → ds.length < 256 → FitsParts text → ReadAs parts text) := by
  obtain ⟨hm, ht, hr⟩ := h
  cases he : encodeSmsSubmitPdu destination text s.smsRef (sendFlash := flash) with
  | error e => rw [C38_not_encodable hm he] at hs; cases hs
  | ok pdus =>
    obtain ⟨r', k1, k2, k3⟩ := encode_parts he
    have hr' : r' = (c + ms.length) % 256 := by omega
    subst hr'
    obtain ⟨n, _, h4, h5⟩ := C79_submitted (envA := env) hm he ht
    have := h5 ⟨i, by rw [hs]⟩
    subst this
    rw [hs, List.take_length] at h4
    dsimp only at h4
    refine ⟨_, ?_, k3, fun ds hd hdl hf => ?_⟩
    · obtain ⟨parts, k4⟩ := send_into_step hn hm ht hs
      rw [taken_unique h4 k4.taken]
      exact k4
    · have ha : AddrOk false destination destination := .phone hd (by unfold maxDigits; simp; omega)
      cases hf with
      | gsm7 f1 f2 f3 f4 f5 f6 f7 =>
        obtain ⟨parts, texts, g1, g2, _, g3⟩ := C79_joined hm ha hr (by omega) f2 f3 f1 (fun c hc ⟨x, hx⟩ => f4 c hc x hx) f5 f6 hs ht
        rw [← List.append_cancel_left (taken_unique g1 h4)]
        exact ⟨texts, g2, g3.2 f7⟩
      | ucs2 f1 f2 f3 f4 f5 =>
        obtain ⟨parts, texts, g1, g2, _, g3⟩ := C79_joined_ucs2 hm ha hr (by omega) f1 f2 f3 f4 hs ht
        rw [← List.append_cancel_left (taken_unique g1 h4)]
        exact ⟨texts, g2, g3.2 f5⟩

/-- The same for several messages. -/
theorem sends_in_step [PyUnicode] {msgs : List (PyStr × PyStr × Bool)} {s s' : St} {c : Nat} {ms : List PyStr} (hn : NumbersFrom env.reply c)
    (h : Sends env msgs s s') (hi : InStep env.reply c s ms) :
    ∃ groups : List (List PyStr), groups.length = msgs.length ∧ InStep env.reply c s' (ms ++ groups.flatten) ∧
      (∀ j (hj : j < groups.length), PartsOf ((c + ms.length + (groups.take j).flatten.length) % 256) groups[j]) ∧
      ∀ j (hj : j < groups.length) d t f ds, msgs[j]? = some (d, t, f) → Phone d ds → ds.length < 256 → FitsParts t → ReadAs groups[j] t := by
  induction h generalizing ms with
  | done => exact ⟨[], rfl, by simpa using hi, (fun j hj => by simp at hj), fun j hj => by simp at hj⟩
  | other h1 h2 h3 _ ih => exact ih ⟨h1.trans hi.pdu, h3 _ hi.taken, h2.trans hi.ref⟩
  | send h1 _ ih =>
    obtain ⟨parts, k1, k2, k2'⟩ := send_in_step hn hi h1
    obtain ⟨groups, k3, k4, k5, k6⟩ := ih k1
    refine ⟨parts :: groups, by simp [k3], by simpa using k4, ?_, ?_⟩
    · intro j hj
      cases j with
      | zero => simpa using k2
      | succ j =>
        have := k5 j (by simpa using hj)
        simpa [Nat.add_assoc] using this
    · intro j hj d t f ds hm
      cases j with
      | zero =>
        simp only [List.getElem?_cons_zero, Option.some.injEq, Prod.mk.injEq] at hm
        obtain ⟨rfl, rfl, rfl⟩ := hm
        exact k2' ds
      | succ j => exact k6 j (by simpa using hj) d t f ds (by simpa using hm)

/-! ### Collecting -/

theorem parts_ne_nil {r : Nat} {parts : List PyStr} (h : PartsOf r parts) : 1 ≤ parts.length := by
  rcases h with ⟨m, rfl, _⟩ | ⟨h, _⟩
  · simp
  · omega

theorem forall₂_range_getElem {α} {R : Nat → α → Prop} {l : List α} (h : List.Forall₂ R (List.range l.length) l) : ∀ i (hi : i < l.length), R i l[i] := by
  intro i hi
  have := List.forall₂_iff_get.1 h
  simpa using this.2 i (by simpa using hi) hi

/-- Where the parts of a message begin. -/
def startOf (groups : List (List PyStr)) (j : Nat) : Nat := (groups.take j).flatten.length

theorem start_succ {groups : List (List PyStr)} {j : Nat} (hj : j < groups.length) : startOf groups (j + 1) = startOf groups j + groups[j].length := by
  unfold startOf
  rw [List.take_add_one, List.getElem?_eq_getElem hj, List.flatten_append, List.length_append]
  simp only [Option.toList_some, List.flatten_cons, List.flatten_nil, List.append_nil]

theorem start_mono {groups : List (List PyStr)} {j : Nat} : ∀ {k : Nat}, j ≤ k → k ≤ groups.length → startOf groups j ≤ startOf groups k
  | 0, h, _ => by have : j = 0 := by omega
                  subst this; exact Nat.le_refl _
  | k + 1, h, hk => by
    rcases Nat.lt_or_ge k j with h' | h'
    · have : j = k + 1 := by omega
      subst this; exact Nat.le_refl _
    · have := start_mono (groups := groups) (k := k) h' (by omega)
      rw [start_succ (show k < groups.length by omega)]
      omega

theorem start_total (groups : List (List PyStr)) : startOf groups groups.length = groups.flatten.length := by
  unfold startOf; rw [List.take_length]

/-- Different messages among the last 256 parts have different references. -/
theorem refs_differ {groups : List (List PyStr)} {base : Nat} (hne : ∀ j (hj : j < groups.length), 1 ≤ groups[j].length) (ht : groups.flatten.length ≤ 256)
    {j k : Nat} (hj : j < groups.length) (hk : k < groups.length) (hjk : j ≠ k) : (base + startOf groups j) % 256 ≠ (base + startOf groups k) % 256 := by
  have key : ∀ {j k : Nat} (hk : k < groups.length), j < k → startOf groups j < startOf groups k ∧ startOf groups k < 256 := by
    intro j k hk hjk
    have h1 := start_succ (groups := groups) (j := j) (by omega)
    have h2 := start_mono (groups := groups) (show j + 1 ≤ k by omega) (by omega)
    have h3 := start_succ hk
    have h4 := start_mono (groups := groups) (show k + 1 ≤ groups.length by omega) (by omega)
    have h5 := hne j (by omega)
    have h6 := hne k hk
    rw [start_total] at h4
    omega
  rcases Nat.lt_or_gt_of_ne hjk with h | h
  · have := key hk h; omega
  · have := key hj h; omega

theorem flatten_split {groups : List (List PyStr)} {j : Nat} (hj : j < groups.length) :
    groups.flatten = (groups.take j).flatten ++ (groups[j] ++ (groups.drop (j + 1)).flatten) := by
  have h : groups = groups.take j ++ groups[j] :: groups.drop (j + 1) := by
    rw [← List.drop_eq_getElem_cons hj, List.take_append_drop]
  have h' := congrArg List.flatten h
  rw [List.flatten_append, List.flatten_cons] at h'
  exact h'

/-- The parts of one message are found among all of them. -/
theorem collected_group {header : PyStr → Option (Nat × Nat × Nat)} (hh : ReadsHeaders header) {groups : List (List PyStr)} {base : Nat}
    (hg : ∀ j (hj : j < groups.length), PartsOf ((base + startOf groups j) % 256) groups[j]) (ht : groups.flatten.length ≤ 256)
    {arrived l : List PyStr} (ha : arrived.Perm groups.flatten) {j : Nat} (hj : j < groups.length) (h2 : 2 ≤ groups[j].length)
    (hc : Collected header ((base + startOf groups j) % 256) groups[j].length arrived l) : l = groups[j] := by
  have hne : ∀ j (hj : j < groups.length), 1 ≤ groups[j].length := fun j hj => parts_ne_nil (hg j hj)
  have hown : ∀ i (hi : i < groups[j].length), header (groups[j])[i] = some ((base + startOf groups j) % 256, groups[j].length, i + 1) := by
    rcases hg j hj with ⟨m, h, _⟩ | ⟨_, h⟩
    · rw [h] at h2; simp at h2
    · intro i hi
      exact hh.some (forall₂_range_getElem h i hi)
  obtain ⟨p, hp⟩ : ∃ p : PyStr → Bool, p = fun m => match header m with
    | some (r', n', _) => decide (r' = (base + startOf groups j) % 256 ∧ n' = groups[j].length) | none => false := ⟨_, rfl⟩
  have hother : ∀ k (hk : k < groups.length), k ≠ j → ∀ m ∈ groups[k], p m = false := by
    intro k hk hkj m hm
    rw [hp]
    dsimp only
    rcases hg k hk with ⟨m', h, h'⟩ | ⟨_, h⟩
    · rw [h, List.mem_singleton] at hm
      subst hm
      rw [hh.none h']
    · obtain ⟨i, _, h⟩ := forall₂_mem_right h hm
      rw [hh.some h]
      have := refs_differ (base := base) hne ht hk hj hkj
      simp [this]
  have hfilter : ∀ gs : List (List PyStr), (∀ g ∈ gs, ∀ m ∈ g, p m = false) → gs.flatten.filter p = [] := by
    intro gs h
    rw [List.filter_eq_nil_iff]
    intro m hm
    obtain ⟨g, hg1, hg2⟩ := List.mem_flatten.1 hm
    simp [h g hg1 m hg2]
  have hall : groups.flatten.filter p = groups[j] := by
    rw [flatten_split hj, List.filter_append, List.filter_append, hfilter, hfilter, List.nil_append, List.append_nil, List.filter_eq_self.2]
    · intro m hm
      obtain ⟨i, hi, rfl⟩ := List.mem_iff_getElem.1 hm
      rw [hp]
      dsimp only
      rw [hown i hi]
      simp
    · intro g hgm
      obtain ⟨i, hi, rfl⟩ := List.mem_iff_getElem.1 hgm
      rw [List.getElem_drop]
      exact hother _ _ (by omega)
    · intro g hgm
      obtain ⟨i, hi, rfl⟩ := List.mem_iff_getElem.1 hgm
      rw [List.getElem_take]
      rw [List.length_take] at hi
      exact hother _ _ (by omega)
  have hperm : l.Perm groups[j] := by
    refine hc.those.trans ?_
    have : (arrived.filter p).Perm (groups.flatten.filter p) := ha.filter p
    rw [hall] at this
    refine List.Perm.trans (List.Perm.of_eq ?_) this
    rw [hp]
    congr
  refine hperm.eq_of_pairwise (le := fun a b => ∀ i j', header a = some ((base + startOf groups j) % 256, groups[j].length, i) →
    header b = some ((base + startOf groups j) % 256, groups[j].length, j') → i ≤ j') ?_ hc.order ?_
  · intro a b ha hb h1 h2
    obtain ⟨i, hi, rfl⟩ := List.mem_iff_getElem.1 (hperm.mem_iff.1 ha)
    obtain ⟨i', hi', rfl⟩ := List.mem_iff_getElem.1 hb
    have k1 := h1 _ _ (hown i hi) (hown i' hi')
    have k2 := h2 _ _ (hown i' hi') (hown i hi)
    have : i = i' := by omega
    subst this
    rfl
  · rw [List.pairwise_iff_getElem]
    intro a b ha hb hab i i' h1 h2
    rw [hown a ha] at h1
    rw [hown b hb] at h2
    cases h1; cases h2
    omega

end Gsm
