import Verif.Lemmas.Concatenated
/-! # Property C94: parts of different long messages are not mixed up -/
namespace Gsm
open Spec

variable {env : Env}

/-- A PDU is part of one message only, and at one place. -/
theorem C94_header_unique {m : PyStr} {r n i : Nat} (h : HeaderOf m r n i) :
    ¬ NoHeader m ∧ ∀ {r' n' i'}, HeaderOf m r' n' i' → r' = r ∧ n' = n ∧ i' = i :=
  ⟨header_not_none h, fun h' => header_unique h' h⟩

/-- Whatever the modem does, `sendSms` makes the PDUs of a message with the counter as reference. -/
theorem C94_parts [PyUnicode] {destination text : PyStr} {flash : Bool} {s : St} {pdus : List Pdu}
    (h : encodeSmsSubmitPdu destination text s.smsRef (sendFlash := flash) = .ok pdus) :
    ∃ r : Nat, s.smsRef = r ∧ r < 256 ∧ PartsOf r (pdus.map fun p => pduHex p.data) := encode_parts h

/-- C22, for the PDUs that are written: all their octets are octets, and what is written is their hexadecimal form. -/
theorem C22_submit_pdus [PyUnicode] {number text : PyStr} {reference : Int} {validity : Validity} {smsc : Option PyStr} {srr rd flash : Bool} {pdus : List Pdu}
    (h : encodeSmsSubmitPdu number text reference validity smsc srr rd flash = .ok pdus) :
    ∀ p ∈ pdus, (∀ x ∈ p.data, x < 256) ∧ HexOf p.data (pduHex p.data) :=
  fun p hp => ⟨encode_octets h p hp, (C22_str_pdu (encode_octets h p hp)).1⟩

/-- With a modem that numbers what it takes over: once in step, the program stays in step with every message that it sends, and the parts of the message
have the number of its first part as reference. -/
theorem C94_in_step [PyUnicode] {destination text : PyStr} {flash : Bool} {s s' : St} {i c : Nat} {ms : List PyStr} (hn : NumbersFrom env.reply c)
    (h : InStep env.reply c s ms) (hs : sendSms destination text flash env s = (.ok i, s')) :
    ∃ parts, InStep env.reply c s' (ms ++ parts) ∧ PartsOf ((c + ms.length) % 256) parts := by
  obtain ⟨parts, h1, h2, _⟩ := send_in_step hn h hs
  exact ⟨parts, h1, h2⟩

/-- The first message brings the program into step, whatever the counter was. -/
theorem C94_comes_into_step [PyUnicode] {destination text : PyStr} {flash : Bool} {s s' : St} {i c : Nat} {ms : List PyStr} (hn : NumbersFrom env.reply c)
    (hm : s.smsTextMode = false) (ht : TakenOver env.reply s.log ms) (hs : sendSms destination text flash env s = (.ok i, s')) :
    ∃ parts, InStep env.reply c s' (ms ++ parts) := send_into_step hn hm ht hs

/-- The references of the messages among 256 parts are different. -/
theorem C94_references [PyUnicode] {msgs : List (PyStr × PyStr × Bool)} {s s' : St} {c : Nat} {ms : List PyStr} (hn : NumbersFrom env.reply c)
    (h : Sends env msgs s s') (hi : InStep env.reply c s ms) :
    ∃ (groups : List (List PyStr)) (refs : List Nat), groups.length = msgs.length ∧ TakenOver env.reply s'.log (ms ++ groups.flatten) ∧
      List.Forall₂ PartsOf refs groups ∧ (groups.flatten.length ≤ 256 → refs.Nodup) := by
  obtain ⟨groups, h1, h2, h3, _⟩ := sends_in_step hn h hi
  refine ⟨groups, (List.range groups.length).map fun j => (c + ms.length + startOf groups j) % 256, h1, h2.taken, ?_, fun ht => ?_⟩
  · rw [List.forall₂_iff_get]
    refine ⟨by simp, fun j hj hj' => ?_⟩
    simp only [List.get_eq_getElem, List.getElem_map, List.getElem_range]
    exact h3 j hj'
  · rw [List.Nodup, List.pairwise_iff_getElem]
    intro j k hj hk hjk
    simp only [List.length_map, List.length_range] at hj hk
    simp only [List.getElem_map, List.getElem_range]
    exact refs_differ (fun j hj => parts_ne_nil (h3 j hj)) ht hj hk (by omega)

/-- However the parts of all the messages are mixed on their way, the receiver gets each long message together again: its own parts in their order, and
nothing else; read in this order they give its text. -/
theorem C94_collected [PyUnicode] {msgs : List (PyStr × PyStr × Bool)} {s s' : St} {c : Nat} {ms : List PyStr} (hn : NumbersFrom env.reply c)
    (h : Sends env msgs s s') (hi : InStep env.reply c s ms) :
    ∃ (groups : List (List PyStr)) (refs : List Nat), groups.length = msgs.length ∧ TakenOver env.reply s'.log (ms ++ groups.flatten) ∧
      List.Forall₂ PartsOf refs groups ∧
      (groups.flatten.length ≤ 256 → ∀ {header arrived l} {j : Nat} {g r d t f}, ReadsHeaders header → arrived.Perm groups.flatten →
        groups[j]? = some g → refs[j]? = some r → msgs[j]? = some (d, t, f) → 2 ≤ g.length → Collected header r g.length arrived l →
        l = g ∧ (∀ ds, Phone d ds → ds.length < 256 → FitsParts t → ReadAs l t)) := by
  obtain ⟨groups, h1, h2, h3, h4⟩ := sends_in_step hn h hi
  refine ⟨groups, (List.range groups.length).map fun j => (c + ms.length + startOf groups j) % 256, h1, h2.taken, ?_, fun ht => ?_⟩
  · rw [List.forall₂_iff_get]
    refine ⟨by simp, fun j hj hj' => ?_⟩
    simp only [List.get_eq_getElem, List.getElem_map, List.getElem_range]
    exact h3 j hj'
  · intro header arrived l j g r d t f hh ha hg hr hm hg2 hc
    obtain ⟨hj, rfl⟩ := List.getElem?_eq_some_iff.1 hg
    have hr' : r = (c + ms.length + startOf groups j) % 256 := by
      rw [List.getElem?_map, List.getElem?_range hj] at hr
      exact (Option.some.inj hr).symm
    subst hr'
    have := collected_group hh h3 ht ha hj hg2 hc
    subst this
    exact ⟨rfl, fun ds => h4 j hj d t f ds hm⟩

/-- A message that fails leaves the counter as it was. -/
theorem C94_failed_keeps [PyUnicode] {destination text : PyStr} {flash : Bool} {s s' : St} {e : PyErr} (hm : s.smsTextMode = false)
    (hs : sendSms destination text flash env s = (.error e, s')) : s'.smsRef = s.smsRef := by
  cases he : encodeSmsSubmitPdu destination text s.smsRef (sendFlash := flash) with
  | error e' => rw [C38_not_encodable hm he] at hs; cases hs; rfl
  | ok pdus =>
    obtain ⟨ok, _, h2, h3⟩ := C38_pdu_mode (env := env) hm he
    rw [hs] at h2 h3
    have key : OnlyLog s s' := by
      cases ok with
      | false => exact (h2 rfl).2
      | true =>
        obtain ⟨k1, k2⟩ := h3 rfl
        cases hc : cmgsLine (lastAnswer env s'.log) with
        | none => exact (k1 hc).2
        | some l =>
          obtain ⟨k3, k4⟩ := k2 l hc
          cases hp : pyInt (l.drop 7) with
          | error e => exact (k3 e hp).2
          | ok r => have := (k4 r hp).1; cases this
    obtain ⟨l, w, rfl⟩ := key
    rfl

/-! ### A modem that numbers the messages -/

/-- It begins with `c`, and refuses the messages of these places. -/
def countingModem (c : Nat) (refused : List Nat) : Env where
  reply log := match log with
    | [] => .timeout none
    | cmd :: old =>
      if cmd.getLast? = some 26 then
        if (old.filter fun x => x.getLast? = some 26).length ∈ refused then .lines [py!"ERROR"]
        else .lines [py!"+CMGS: " ++ decStr ((c + (old.filter fun x => x.getLast? = some 26).length) % 256), py!"OK"]
      else .lines [py!"> "]
  depth := 10
  order l := l
  order_perm _ := .refl _

theorem counting_taken {c : Nat} {log ms : List PyStr} (h : TakenOver (countingModem c []).reply log ms) :
    (log.filter fun x => x.getLast? = some 26).length = ms.length := by
  induction h with
  | nothing => rfl
  | taken _ _ ih => simp [ih]
  | @other cmd log ms h1 _ ih =>
    by_cases hc : cmd.getLast? = some 26
    · refine absurd ⟨?_, cmd.dropLast, (List.dropLast_append_getLast? 26 hc).symm⟩ h1
      exact ⟨[py!"+CMGS: " ++ decStr ((c + (log.filter fun x => x.getLast? = some 26).length) % 256), py!"OK"], py!"OK", by simp [countingModem, hc], rfl, by decide, by decide⟩
    · rw [List.filter_cons_of_neg (by simpa using hc)]; exact ih

/-- There are such modems. -/
theorem counting_numbers (c : Nat) : NumbersFrom (countingModem c []).reply c := by
  intro log ms m ht _
  refine ⟨[py!"+CMGS: " ++ decStr ((c + (log.filter fun x => x.getLast? = some 26).length) % 256), py!"OK"], by simp [countingModem], ?_⟩
  rw [counting_taken ht]
  rfl

/-- There are readers of headers. -/
example : ∃ header, ReadsHeaders header := by
  classical
  refine ⟨fun m => if h : ∃ x : Nat × Nat × Nat, HeaderOf m x.1 x.2.1 x.2.2 then some h.choose else none, ?_, ?_⟩
  · intro m r n i h
    have hx : ∃ x : Nat × Nat × Nat, HeaderOf m x.1 x.2.1 x.2.2 := ⟨(r, n, i), h⟩
    simp only [dif_pos hx, Option.some.injEq]
    obtain ⟨h1, h2, h3⟩ := header_unique hx.choose_spec h
    exact Prod.ext h1 (Prod.ext h2 h3)
  · intro m h
    rw [dif_neg]
    rintro ⟨x, hx⟩
    exact header_not_none hx h

/-- Whether an answer is acceptance. -/
def accepts : Reply → Bool
  | .lines ls => match ls.getLast? with
    | some line => decide (¬ py!"ERROR" <:+: line ∧ line ≠ py!"COMMAND NOT SUPPORT")
    | none => false
  | .timeout _ => false

theorem accepts_iff {reply : List PyStr → Reply} {log : List PyStr} : accepts (reply log) = true ↔ Accepted reply log := by
  unfold accepts Accepted
  cases hr : reply log with
  | timeout d => simp
  | lines ls =>
    cases hl : ls.getLast? with
    | none => simp [hl]
    | some line => simp [hl]

/-- The messages that have been taken over. -/
def takenList (reply : List PyStr → Reply) : List PyStr → List PyStr
  | [] => []
  | cmd :: old => takenList reply old ++ (if accepts (reply (cmd :: old)) then (beforeCtrlZ cmd).toList else [])

theorem takenList_taken (reply : List PyStr → Reply) : ∀ log, TakenOver reply log (takenList reply log)
  | [] => .nothing
  | cmd :: old => by
    have ih := takenList_taken reply old
    rw [takenList]
    split
    · rename_i ha
      cases hc : beforeCtrlZ cmd with
      | none => simpa using TakenOver.other (fun h => ctrlZ_none hc h.2) ih
      | some m =>
        cases ctrlZ_eq hc
        exact .taken (accepts_iff.1 ha) ih
    · rename_i ha
      rw [List.append_nil]
      exact .other (fun h => ha (accepts_iff.2 h.1)) ih

/-- A message to 12 with this character 161 times: two parts. -/
abbrev sendLong (x : Nat) (env : Env) (s : St) : Except PyErr Nat × St :=
  letI := asciiUnicode
  sendSms py!"12" (List.replicate 161 x) false env s

/-- The part of a PDU to 12 that tells of the parts. -/
def headerHex (m : PyStr) : PyStr := (m.drop 18).take 12

theorem ok_run {x : Except PyErr Nat × St} {i : Nat} (h : x.1 = .ok i) : x = (.ok i, x.2) := Prod.ext h rfl

-- in step, and two messages
example : InStep (countingModem 5 []).reply 5 { smsRef := 5 } [] := ⟨rfl, .nothing, rfl⟩
attribute [local instance] asciiUnicode in
example : Sends (countingModem 5 []) [(py!"12", List.replicate 161 97, false), (py!"12", List.replicate 161 98, false)] { smsRef := 5 }
    (sendLong 98 (countingModem 5 []) (sendLong 97 (countingModem 5 []) { smsRef := 5 }).2).2 :=
  .send (ok_run (x := sendLong 97 (countingModem 5 []) { smsRef := 5 }) (i := 0) (by decide +kernel))
    (.send (ok_run (x := sendLong 98 (countingModem 5 []) (sendLong 97 (countingModem 5 []) { smsRef := 5 }).2) (i := 1) (by decide +kernel)) .done)
example : (takenList (countingModem 5 []).reply (sendLong 98 (countingModem 5 []) (sendLong 97 (countingModem 5 []) { smsRef := 5 }).2).2.log).map headerHex =
    [py!"050003050201", py!"050003050202", py!"050003070201", py!"050003070202"] := by decide +kernel
example : FitsParts (List.replicate 161 97) := by
  have h : encodeGsm7 (List.replicate 161 97) = .ok (List.replicate 161 97) := by decide +kernel
  refine .gsm7 h (fun h => ?_) (fun h => ?_) (fun c hc x hx => ?_) (by rw [List.length_replicate]; omega) (by rw [List.length_replicate]; omega) (by rw [List.length_replicate]; omega)
  · have := List.eq_of_mem_replicate h; omega
  · have := List.eq_of_mem_replicate h; omega
  · rw [List.eq_of_mem_replicate hc] at hx
    unfold gsmExtChar at hx
    split at hx <;> revert hx <;> decide

/-- An executable reader for PDUs to 12. -/
def readHeader (m : PyStr) : Option (Nat × Nat × Nat) :=
  match unhex m with
  | some (0 :: fo :: _ :: 2 :: 0xA1 :: 0x21 :: _ :: _ :: _ :: 5 :: 0 :: 3 :: r :: n :: i :: _) =>
    if fo % 4 = 1 ∧ fo / 8 % 4 = 0 ∧ fo.testBit 6 = true then some (r, n, i) else none
  | _ => none

theorem readHeader_some {m : PyStr} {r n i : Nat} (h : readHeader m = some (r, n, i)) : HeaderOf m r n i := by
  unfold readHeader at h
  split at h
  · rename_i fo mr pid dcs udl r' n' i' rest hu
    split at h
    · rename_i hfo
      cases h
      exact ⟨_, ⟨[0], fo, mr, [2, 0xA1, 0x21], pid, dcs, [], udl, 5 :: 0 :: 3 :: r :: n :: i :: rest⟩, rest, of_unhex hu,
        ⟨rfl, hfo.1, ⟨0, [], rfl, rfl⟩, ⟨2, 0xA1, [0x21], rfl, rfl⟩, by simp [vpOctets, hfo.2.1]⟩, hfo.2.2, rfl⟩
    · cases h
  · cases h

/-- Two messages of two parts with reference 0. -/
def sharing : List PyStr → Bool
  | [a1, a2, b1, b2] => readHeader a1 = some (0, 2, 1) && readHeader a2 = some (0, 2, 2) && readHeader b1 = some (0, 2, 1) && readHeader b2 = some (0, 2, 2) && a1 ≠ b1
  | _ => false

/-- The first part of a message and another message of two parts with reference 0. -/
def sharingFirst : List PyStr → Bool
  | [a1, b1, b2] => readHeader a1 = some (0, 2, 1) && readHeader b1 = some (0, 2, 1) && readHeader b2 = some (0, 2, 2) && a1 ≠ b1
  | _ => false

/-- C94 (violated for a new modem object). The counter begins at 0, not at the modem's number: when the first long message ends just before the modem's
number 0 (here: numbers 254 and 255), the next one has the same reference, and both have two parts. -/
theorem C94_first_shares : ∃ a1 a2 b1 b2, (sendLong 97 (countingModem 254 []) {}).1 = .ok 0 ∧
    (sendLong 98 (countingModem 254 []) (sendLong 97 (countingModem 254 []) {}).2).1 = .ok 1 ∧
    TakenOver (countingModem 254 []).reply (sendLong 98 (countingModem 254 []) (sendLong 97 (countingModem 254 []) {}).2).2.log [a1, a2, b1, b2] ∧
    HeaderOf a1 0 2 1 ∧ HeaderOf a2 0 2 2 ∧ HeaderOf b1 0 2 1 ∧ HeaderOf b2 0 2 2 ∧ a1 ≠ b1 := by
  have h1 : (sendLong 97 (countingModem 254 []) {}).1 = .ok 0 := by decide +kernel
  have h2 : (sendLong 98 (countingModem 254 []) (sendLong 97 (countingModem 254 []) {}).2).1 = .ok 1 := by decide +kernel
  have h3 : sharing (takenList (countingModem 254 []).reply (sendLong 98 (countingModem 254 []) (sendLong 97 (countingModem 254 []) {}).2).2.log) = true := by decide +kernel
  have h4 := takenList_taken (countingModem 254 []).reply (sendLong 98 (countingModem 254 []) (sendLong 97 (countingModem 254 []) {}).2).2.log
  generalize takenList _ _ = l at h3 h4
  unfold sharing at h3
  split at h3
  · simp only [Bool.and_eq_true, decide_eq_true_eq] at h3
    obtain ⟨⟨⟨⟨k1, k2⟩, k3⟩, k4⟩, k5⟩ := h3
    exact ⟨_, _, _, _, h1, h2, h4, readHeader_some k1, readHeader_some k2, readHeader_some k3, readHeader_some k4, k5⟩
  · cases h3

/-- C94 (violated after a failure). The second part of a message is refused, so `sendSms` raises; the next message to the same number has the reference of
the part that is already out, and both have two parts. -/
theorem C94_failure_shares : ∃ a1 b1 b2, (∃ e, (sendLong 97 (countingModem 0 [1]) {}).1 = .error e) ∧
    (sendLong 98 (countingModem 0 [1]) (sendLong 97 (countingModem 0 [1]) {}).2).1 = .ok 0 ∧
    TakenOver (countingModem 0 [1]).reply (sendLong 98 (countingModem 0 [1]) (sendLong 97 (countingModem 0 [1]) {}).2).2.log [a1, b1, b2] ∧
    HeaderOf a1 0 2 1 ∧ HeaderOf b1 0 2 1 ∧ HeaderOf b2 0 2 2 ∧ a1 ≠ b1 := by
  have h1 : (sendLong 97 (countingModem 0 [1]) {}).1 = .error (.command .command none) := by decide +kernel
  have h2 : (sendLong 98 (countingModem 0 [1]) (sendLong 97 (countingModem 0 [1]) {}).2).1 = .ok 0 := by decide +kernel
  have h3 : sharingFirst (takenList (countingModem 0 [1]).reply (sendLong 98 (countingModem 0 [1]) (sendLong 97 (countingModem 0 [1]) {}).2).2.log) = true := by decide +kernel
  have h4 := takenList_taken (countingModem 0 [1]).reply (sendLong 98 (countingModem 0 [1]) (sendLong 97 (countingModem 0 [1]) {}).2).2.log
  generalize takenList _ _ = l at h3 h4
  unfold sharingFirst at h3
  split at h3
  · simp only [Bool.and_eq_true, decide_eq_true_eq] at h3
    obtain ⟨⟨⟨k1, k2⟩, k3⟩, k4⟩ := h3
    exact ⟨_, _, _, ⟨_, h1⟩, h2, h4, readHeader_some k1, readHeader_some k2, readHeader_some k3, k4⟩
  · cases h3

end Gsm
