import Verif.Lemmas.Listing
import Verif.Spec.ExampleModem
/-! # Properties C40 to C42: stored messages -/
namespace Gsm
open M Spec

variable {env : Env}

/-- What `listStoredSms` does, for answers that list `indices` and describe `messages`: selects the memory,
asks for the listing, and deletes if this is wished; it stops at the first failure. -/
def ListSpec (env : Env) (command : PyStr) (answer : List PyStr) (indices : List Nat) (messages : List Msg)
    (status : Int) (memory : Option PyStr) (delete : Bool) (s : St) : Prop :=
  ∃ ok s1, LogMem s s1 ∧ Transmission env.reply (selectCommands s memory ++ [command]) s.log s1.log ok ∧
    (ok = false → ∃ e, listStoredSms status memory delete env s = (.error e, s1)) ∧
    (ok = true → lastAnswer env s1.log = answer →
      (delete = false → listStoredSms status memory delete env s = (.ok messages, s1)) ∧
      (delete = true → ∃ cs ok2 s2, Deletes status indices cs ∧ LogMem s1 s2 ∧ Transmission env.reply cs s1.log s2.log ok2 ∧
        (ok2 = true → listStoredSms status memory delete env s = (.ok messages, s2)) ∧
        (ok2 = false → ∃ e, listStoredSms status memory delete env s = (.error e, s2))))

theorem list_spec {c : PyStr} {answer : List PyStr} {is : List Nat} {ms : List Msg} {status : Int} {memory : Option PyStr} {delete : Bool} {s : St}
    (hc : listCommand s.smsTextMode status = .ok c)
    (hp : parseListing s.smsTextMode answer = .ok ⟨ms, (is.map fun (n : Nat) => (n : Int)).foldl setAdd []⟩) :
    ListSpec env (c ++ [13]) answer is ms status memory delete s := by
  obtain ⟨ok, s1, h1, h2, h3⟩ := list_trans (env := env) (memory := memory) (delete := delete) hc
  refine ⟨ok, s1, h1, h2, ?_, ?_⟩
  · rintro rfl
    rcases h3 with ⟨_, h3⟩ | ⟨h, _⟩
    · exact h3
    · cases h
  · rintro rfl ha
    rcases h3 with ⟨h, _⟩ | ⟨_, ⟨e, h4, _⟩ | ⟨l, h4, h5⟩⟩
    · cases h
    · rw [ha, hp] at h4; cases h4
    · rw [ha, hp] at h4
      cases h4
      refine ⟨?_, ?_⟩
      · rintro rfl
        rw [h5]
        rfl
      · rintro rfl
        obtain ⟨hn, hm⟩ := fold_setAdd (is.map fun (n : Nat) => (n : Int)) [] List.nodup_nil
        obtain ⟨cs, ok2, s2, k1, k2, k3, k4⟩ := deleteListed_trans (env := env) status is _ hn (fun j => by rw [hm]; simp) s1
        refine ⟨cs, ok2, s2, k1, k2, k3, ?_, ?_⟩
        · rintro rfl
          rcases k4 with ⟨_, k4⟩ | ⟨h, _⟩
          · rw [h5, k4]
          · cases h
        · rintro rfl
          rcases k4 with ⟨h, _⟩ | ⟨_, e, k4⟩
          · cases h
          · exact ⟨e, by rw [h5, k4]⟩

/-! ### C40 -/

/-- In PDU mode the messages of a listing are returned in order, and exactly the listed ones are deleted. -/
theorem C40_listing {es : List PduEntry} {ms : List Msg} (hok : ∀ e ∈ es, e.Ok) (hms : List.Forall₂ PduEntry.Means es ms)
    {status : Int} {memory : Option PyStr} {delete : Bool} {s : St} (hm : s.smsTextMode = false) :
    ListSpec env (py!"AT+CMGL=" ++ intStr status ++ [13]) (es.flatMap PduEntry.lines ++ [py!"OK"]) (es.map fun e => decVal e.index) ms status memory delete s := by
  refine list_spec (by simp [listCommand, hm]) ?_
  unfold parseListing
  rw [hm, if_neg (by simp), pduListLoop_entries hok hms, List.map_map]
  rfl

/-- The text "Hi". -/
def hiPdu : PyStr := py!"0004059172214300003130413120538002C834"
def hiMsg (status : Int) : Msg :=
  .received status (some py!"+271234") ⟨2013, 3, 14, 13, 2, 35, 0, some ⟨0, 7200, 0⟩⟩ py!"Hi" none

example : (⟨py!" ", py!"3", [], py!"1", py!",18", hiPdu⟩ : PduEntry).Means (hiMsg 1) :=
  .inl ⟨none, 18, some py!"+271234", 0, ⟨2013, 3, 14, 13, 2, 35, 0, some ⟨0, 7200, 0⟩⟩, ⟨none, py!"Hi"⟩, by decide +kernel, by rfl⟩

/-- A modem with two messages. -/
def twoMessages (second : PyStr) : Env := modemWith fun log =>
  if log.head? = some py!"AT+CMGL=1\r" then some (.lines [py!"+CMGL: 3,1,,18", hiPdu, py!"+CMGL: 4,1,,18", second, py!"OK"])
  else if log.head? = some py!"AT+CMGR=3\r" then some (.lines [py!"+CMGR: 0,,18", hiPdu, py!"OK"])
  else none

example : (listStoredSms 1 (some py!"SM") true (twoMessages hiPdu) {}).1 = .ok [hiMsg 1, hiMsg 1] ∧
    (listStoredSms 1 (some py!"SM") true (twoMessages hiPdu) {}).2.log.reverse =
      [py!"AT+CPMS=\"SM\"\r", py!"AT+CMGL=1\r", py!"AT+CMGD=3,0\r", py!"AT+CMGD=4,0\r"] := by decide +kernel

/-- A PDU that cannot be decoded is skipped, but its header is kept: the next PDU that can be decoded gets its
status and its index, whatever headers come in between. -/
theorem C40_undecodable {acc : Listing} {i st : Int} {bad rest : List PyStr} {pdu : PyStr} {d : DecodedSms} {m : Msg}
    (hbad : ∀ l ∈ bad, decodeSmsPdu l = .error .encodingError) (hd : decodeSmsPdu pdu = .ok d) (hm : msgOfPdu st d = .ok m) :
    pduListLoop acc (some (i, st)) (bad ++ pdu :: rest) = pduListLoop ⟨acc.messages ++ [m], setAdd acc.delMessages i⟩ none rest := by
  induction bad with
  | nil => simp only [List.nil_append, pduListLoop, hd, hm, bind, Except.bind]
  | cons l bad ih =>
    rw [List.cons_append, pduListLoop]
    simp only [hbad l (by simp)]
    exact ih fun x hx => hbad x (by simp [hx])

/-- So the wrong message is deleted. -/
theorem C40_wrong_message_deleted : pduListLoop ⟨[], []⟩ none [py!"+CMGL: 3,0,,18", py!"0G", py!"+CMGL: 4,1,,18", hiPdu, py!"OK"] =
    .ok ⟨[hiMsg 0], [3]⟩ := by decide +kernel

/-- Another exception while decoding one message loses the whole listing. -/
theorem C40_lost {acc : Listing} {i st : Int} {pdu : PyStr} {rest : List PyStr} {e : PyErr}
    (h : decodeSmsPdu pdu = .error e) (he : e ≠ .encodingError) : pduListLoop acc (some (i, st)) (pdu :: rest) = .error e := by
  rw [pduListLoop]
  split
  · next h' => rw [h] at h'; cases h'; exact absurd rfl he
  · next h' => rw [h] at h'; cases h'; rfl
  · next h' => rw [h] at h'; cases h'

/-! ### C41 -/

/-- In text mode the messages of a listing are returned in order, and exactly the listed ones are deleted. -/
theorem C41_listing {es : List TextEntry} {ms : List Msg} (hok : ∀ e ∈ es, e.Ok) (hms : List.Forall₂ TextEntry.Means es ms)
    {status : Int} {name : PyStr} (hs : (name, status) ∈ stateNames) {memory : Option PyStr} {delete : Bool} {s : St} (hm : s.smsTextMode = true) :
    ListSpec env (py!"AT+CMGL=\"" ++ name ++ py!"\"\r") (es.flatMap TextEntry.lines ++ [py!"OK"]) (es.map fun e => decVal e.index) ms status memory delete s := by
  have hc : listCommand s.smsTextMode status = .ok (py!"AT+CMGL=\"" ++ name ++ py!"\"") := by
    simp only [stateNames, List.mem_cons, List.not_mem_nil, or_false, Prod.mk.injEq] at hs
    rw [hm]
    rcases hs with ⟨rfl, rfl⟩ | ⟨rfl, rfl⟩ | ⟨rfl, rfl⟩ | ⟨rfl, rfl⟩ | ⟨rfl, rfl⟩ <;> rfl
  have := list_spec (env := env) (answer := es.flatMap TextEntry.lines ++ [py!"OK"]) (is := es.map fun e => decVal e.index) (ms := ms)
    (memory := memory) (delete := delete) hc (by
      unfold parseListing
      rw [hm, if_pos rfl, textListLoop_entries (acc' := ⟨[], []⟩) hok hms rfl, List.map_map]
      rfl)
  simpa using this

/-- Headers in text mode. -/
def hdr1 : PyStr := py!"+CMGL: 1,\"REC READ\",\"+2782\",,\"13/04/29,19:58:00+04\""
def hdr2 : PyStr := py!"+CMGL: 2,\"REC READ\",\"+2783\",,\"13/04/29,19:58:00+04\""

example : parseListing true [hdr1, py!"Hi", py!"there", hdr2, py!"Ho", py!"OK"] = .ok ⟨[
    .received 1 (some py!"+2782") ⟨2013, 4, 29, 19, 58, 0, 0, some ⟨0, 3600, 0⟩⟩ (py!"Hi" ++ [10] ++ py!"there") none,
    .received 1 (some py!"+2783") ⟨2013, 4, 29, 19, 58, 0, 0, some ⟨0, 3600, 0⟩⟩ py!"Ho" none], [1, 2]⟩ := by decide +kernel

/-- Any other status is refused; only the memory has been selected. -/
theorem C41_bad_status {status : Int} (hs : ∀ name, (name, status) ∉ stateNames) {delete : Bool} {s : St} (hm : s.smsTextMode = true) :
    listStoredSms status none delete env s = (.error .valueError, s) := by
  have : statusText? status = none := by
    simp only [stateNames, List.mem_cons, List.not_mem_nil, or_false, Prod.mk.injEq, not_or, not_and] at hs
    unfold statusText?
    rw [if_neg fun h => (hs _).1 rfl h, if_neg fun h => (hs _).2.1 rfl h, if_neg fun h => (hs _).2.2.1 rfl h,
      if_neg fun h => (hs _).2.2.2.1 rfl h, if_neg fun h => (hs _).2.2.2.2 rfl h]
  unfold listStoredSms
  simp only [run_bind, run_get, run_ofExcept]
  have h0 : setSmsMemory none none env s = (.ok (), s) := rfl
  rw [h0]
  simp [listCommand, hm, this]

/-- A line `OK` inside a message is lost. -/
theorem C41_ok_line_lost : (parseListing true [hdr1, py!"Is it", py!"OK", py!"now?", py!"OK"]).map (·.messages.map fun m =>
    match m with | .received _ _ _ t _ => t | _ => []) = .ok [py!"Is it" ++ [10] ++ py!"now?"] := by decide +kernel

/-- A message without text is neither returned nor deleted. -/
theorem C41_empty_message_lost : parseListing true [hdr1, py!"OK"] = .ok ⟨[], []⟩ := by decide +kernel

/-- The header of a status report is not recognised: it becomes part of the message before it. -/
theorem C41_report_becomes_text : (parseListing true [hdr1, py!"Hi", py!"+CMGL: 2,\"REC READ\",6,20,\"+2782\",145", py!"OK"]).map (·.messages.map fun m =>
    match m with | .received _ _ _ t _ => t | _ => []) =
      .ok [py!"Hi" ++ [10] ++ py!"+CMGL: 2,\"REC READ\",6,20,\"+2782\",145"] := by decide +kernel

/-! ### C42 -/

/-- The line of a notification. -/
def cmtiLine (blanks mem idx : PyStr) : PyStr := py!"+CMTI:" ++ blanks ++ py!"\"" ++ mem ++ py!"\"," ++ idx

theorem cmti_groups {b mem idx : PyStr} (hb : Blanks b) (hm : mem ≠ [] ∧ 34 ∉ mem) (hi : Digits idx) :
    rxGroups cmtiRegex (cmtiLine b mem idx) = some [mem, idx] := by
  have : rxMatch? cmtiRegex (py!"+CMTI:" ++ (b ++ (py!"\"" ++ (mem ++ (py!"\"," ++ (idx ++ [])))))) = some ([mem, idx], []) := by
    unfold rxMatch? cmtiRegex rxGrp
    simp only [List.append_assoc, List.cons_append, List.nil_append]
    refine rxRun_litE (rxRun_star (blanks_class hb) ?_ (rxRun_litE (rxRun_op' (rxRun_plus hm.1 (notin_class hm.2) ?_ (rxRun_cl'
      (rxRun_litE (rxRun_op' (rxRun_plus hi.1 (digits_class hi) ?_ (rxRun_cl' (rxRun_eol' ?_))))))))))
    · intro c hc; simp at hc; subst hc; rfl
    · intro c hc; simp at hc; subst hc; rfl
    · simp
    · simp [rxRun]
  rw [List.append_nil] at this
  simp only [cmtiLine, List.append_assoc, rxGroups]
  rw [this]
  rfl

/-- A notification about a new message: it is read, then deleted, then passed to the callback; the first
failure ends it, and without a message nothing is deleted. -/
theorem C42_received {b mem idx : PyStr} (hb : Blanks b) (hm : mem ≠ [] ∧ 34 ∉ mem) (hi : Digits idx) (s : St) :
    ∃ ok s1, LogMem s s1 ∧ Transmission env.reply (selectCommands s (some mem) ++ [py!"AT+CMGR=" ++ idx ++ [13]]) s.log s1.log ok ∧
      (ok = false → ∃ e, handleSmsReceived (cmtiLine b mem idx) env s = (.error e, s1)) ∧
      (∀ e, ok = true → parseCmgr s.smsTextMode (lastAnswer env s1.log) = .error e → handleSmsReceived (cmtiLine b mem idx) env s = (.error e, s1)) ∧
      (∀ m, ok = true → parseCmgr s.smsTextMode (lastAnswer env s1.log) = .ok m → ∃ ok2 s2, LogMem s1 s2 ∧
        Transmission env.reply [py!"AT+CMGD=" ++ idx ++ py!",0\r"] s1.log s2.log ok2 ∧
        (ok2 = false → ∃ e, handleSmsReceived (cmtiLine b mem idx) env s = (.error e, s2)) ∧
        (ok2 = true → handleSmsReceived (cmtiLine b mem idx) env s = (.ok (), { s2 with callbacks := .smsReceived m :: s2.callbacks }))) := by
  obtain ⟨ok, s1, h1, h2, h3⟩ := read_trans (env := env) idx (some mem) s
  have hr : handleSmsReceived (cmtiLine b mem idx) env s = (readStoredSms idx (some mem) >>= fun sms => deleteStoredSms idx >>= fun _ => callback (.smsReceived sms)) env s := by
    simp only [handleSmsReceived, cmti_groups hb hm hi]
  rw [hr, run_bind]
  refine ⟨ok, s1, h1, h2, ?_, ?_, ?_⟩
  · rintro rfl
    rcases h3 with ⟨h, _⟩ | ⟨_, e, h3⟩
    · cases h
    · exact ⟨e, by rw [h3]⟩
  · rintro e rfl he
    rcases h3 with ⟨_, h3⟩ | ⟨h, _⟩
    · rw [h3, he]
    · cases h
  · rintro m rfl he
    rcases h3 with ⟨_, h3⟩ | ⟨h, _⟩
    · rw [h3, he]
      simp only [run_bind]
      obtain ⟨ok2, s2, k1, k2, k3⟩ := delete_trans (env := env) idx none s1
      refine ⟨ok2, s2, k1, by simpa [selectCommands, cmgdCmd] using k2, ?_, ?_⟩
      · rintro rfl
        rcases k3 with ⟨h, _⟩ | ⟨_, e, k3⟩
        · cases h
        · exact ⟨e, by rw [k3]⟩
      · rintro rfl
        rcases k3 with ⟨_, k3⟩ | ⟨h, _⟩
        · rw [k3]; rfl
        · cases h
    · cases h

example : (handleSmsReceived py!"+CMTI: \"SM\",3" (twoMessages hiPdu) {}).2.callbacks = [.smsReceived (hiMsg 0)] ∧
    (handleSmsReceived py!"+CMTI: \"SM\",3" (twoMessages hiPdu) {}).2.log.reverse =
      [py!"AT+CPMS=\"SM\"\r", py!"AT+CMGR=3\r", py!"AT+CMGD=3,0\r"] := by decide +kernel

/-- A modem that does not delete. -/
def noDelete : Env := modemWith fun log =>
  if log.head? = some py!"AT+CMGD=3,0\r" then some (.lines [py!"+CMS ERROR: 500"]) else some ((twoMessages hiPdu).reply log)

/-- When the deletion fails the message that has been read is not passed on. -/
theorem C42_not_passed_on : (handleSmsReceived py!"+CMTI: \"SM\",3" noDelete {}).1 = .error (.command .cms (some 500)) ∧
    (handleSmsReceived py!"+CMTI: \"SM\",3" noDelete {}).2.callbacks = [] := by decide +kernel

/-- By default all messages are listed, from the memory in use, and none is deleted: only the command that
lists them is written. -/
theorem C41_default {env : Env} {s : St} : ∃ cmd k, listCommand s.smsTextMode 4 = .ok cmd ∧
    ((listStoredSms : M (List Msg)) env s).2.log = List.replicate k (cmd ++ [13]) ++ s.log := by
  have hc : ∃ cmd, listCommand s.smsTextMode 4 = .ok cmd := by cases s.smsTextMode <;> exact ⟨_, rfl⟩
  obtain ⟨cmd, hc⟩ := hc
  obtain ⟨k, w, h, _⟩ := write_outcome (data := cmd) (term := [13]) (env := env) s
  refine ⟨cmd, k, hc, ?_⟩
  have h0 : setSmsMemory none none env s = (.ok (), s) := rfl
  unfold listStoredSms
  simp only [run_bind, run_get, run_ofExcept, h0, hc]
  cases hw : write cmd true [13] env s with
  | mk r s1 =>
    have e1 : s1.log = List.replicate k (cmd ++ [13]) ++ s.log := by
      rw [hw] at h; exact congrArg St.log h
    cases r with
    | error e => exact e1
    | ok ls =>
      dsimp only
      cases parseListing s.smsTextMode ls with
      | error e => exact e1
      | ok l => exact e1

end Gsm
