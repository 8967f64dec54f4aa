import Verif.Spec.Processing
import Verif.Props.ModemListing
import Verif.Props.ModemReading
/-! # Property C69: passing on the stored messages -/
namespace Gsm
open M Spec

variable {env : Env}

theorem callbackAll_run : ∀ (ms : List Msg) (s : St), callbackAll ms env s = (.ok (), { s with callbacks := passOn ms s.callbacks })
  | [], s => rfl
  | m :: ms, s => by
    rw [callbackAll, run_bind]
    simp only [callback, run_modify]
    rw [callbackAll_run ms]
    simp [passOn]

/-- The state that is asked for. -/
def stateNumber (st : Bool) : Int := if st then 1 else 0

/-- The loop over the states. -/
def processAll : List Bool → M Unit
  | [] => pure ()
  | st :: sts => do
    let messages ← listStoredSms (stateNumber st) none true
    callbackAll messages
    processAll sts

theorem process_eq (unreadOnly : Bool) (s : St) : processStoredSms unreadOnly env s = processAll (if unreadOnly then [false] else [true, false]) env s := by
  have h0 : ∀ s, (do let messages ← listStoredSms 0 none true; callbackAll messages : M Unit) env s = processAll [false] env s := by
    intro s
    have e : processAll [false] = (do let messages ← listStoredSms 0 none true; callbackAll messages; pure () : M Unit) := rfl
    rw [e]
    simp only [run_bind]
    rcases listStoredSms 0 none true env s with ⟨_ | ms, s1⟩
    · rfl
    · simp only [callbackAll_run, run_pure]
  cases unreadOnly
  · have e : processAll [true, false] = (do let messages ← listStoredSms 1 none true; callbackAll messages; processAll [false] : M Unit) := rfl
    simp only [Bool.false_eq_true, if_false, e]
    rw [processStoredSms]
    simp only [Bool.not_false, if_true, run_bind]
    rcases listStoredSms 1 none true env s with ⟨_ | ms, s1⟩
    · rfl
    · simp only [callbackAll_run]
      rw [← h0]
      simp only [run_bind, callbackAll_run]
  · exact h0 s

theorem replicate_head {c : PyStr} {k : Nat} {l : List PyStr} (h : 0 < k) : ∃ l', List.replicate k c ++ l = c :: l' := by
  obtain ⟨j, rfl⟩ : ∃ j, k = j + 1 := ⟨k - 1, by omega⟩
  exact ⟨List.replicate j c ++ l, rfl⟩

theorem trans_one_head {reply : List PyStr → Reply} {c : PyStr} {a b : List PyStr} (h : Transmission reply [c] a b true) : ∃ l, b = c :: l := by
  cases h with
  | next hk _ _ h => cases h; exact replicate_head hk

theorem lists_parse {textMode : Bool} {answer : List PyStr} {is : List Nat} {ms : List Msg} (h : Lists textMode answer is ms) :
    parseListing textMode answer = .ok ⟨ms, (is.map fun (n : Nat) => (n : Int)).foldl setAdd []⟩ := by
  cases h with
  | pdu l =>
    unfold parseListing PduListing.answer PduListing.indices
    rw [if_neg (by simp), pduListLoop_entries l.ok l.means, List.map_map]
    rfl
  | text l =>
    unfold parseListing TextListing.answer TextListing.indices
    rw [if_pos rfl, textListLoop_entries (acc' := ⟨[], []⟩) l.ok l.means rfl, List.map_map]
    rfl

/-- One state. -/
theorem stage_run (st : Bool) (s : St) (hw : ListsWell env.reply s.smsTextMode) :
    (∃ e s1, LogMem s s1 ∧ NotEmptied env.reply s.smsTextMode st s.log s1.log ∧ listStoredSms (stateNumber st) none true env s = (.error e, s1)) ∨
    ∃ l answer indices cs ms s1, LogMem s s1 ∧ Transmission env.reply [listCmd s.smsTextMode st] s.log l true ∧ env.reply l = .lines answer ∧
      Lists s.smsTextMode answer indices ms ∧ Deletes (stateNumber st) indices cs ∧ Transmission env.reply cs l s1.log true ∧
      listStoredSms (stateNumber st) none true env s = (.ok ms, s1) := by
  obtain ⟨c, hc, hcc⟩ : ∃ c, listCommand s.smsTextMode (stateNumber st) = .ok c ∧ c ++ [13] = listCmd s.smsTextMode st := by
    cases s.smsTextMode <;> cases st <;> exact ⟨_, rfl, rfl⟩
  obtain ⟨ok, s1, h1, h2, h3⟩ := list_trans (env := env) (memory := none) (delete := true) hc
  rw [hcc] at h2
  replace h2 : Transmission env.reply [listCmd s.smsTextMode st] s.log s1.log ok := h2
  rcases h3 with ⟨rfl, e, h3⟩ | ⟨rfl, h3⟩
  · exact .inl ⟨e, s1, h1, .notListed h2, h3⟩
  · have hacc := trans_accepted h2 rfl (by simp)
    obtain ⟨l', hl'⟩ := trans_one_head h2
    obtain ⟨ls, line, hr, -⟩ := id hacc
    obtain ⟨is, ms, hls⟩ := hw l' st ls (hl' ▸ hr) (hl' ▸ hacc)
    have hla : lastAnswer env s1.log = ls := by simp [lastAnswer, hr]
    rw [hla, lists_parse hls] at h3
    rcases h3 with ⟨e, h3, _⟩ | ⟨l, h3, h4⟩
    · cases h3
    · cases h3
      obtain ⟨hn, hm⟩ := fold_setAdd (is.map fun (n : Nat) => (n : Int)) [] List.nodup_nil
      obtain ⟨cs, ok2, s2, k1, k2, k3, k4⟩ := deleteListed_trans (env := env) (stateNumber st) is _ hn (fun j => by rw [hm]; simp) s1
      rcases k4 with ⟨rfl, k4⟩ | ⟨rfl, e, k4⟩
      · rw [k4] at h4
        exact .inr ⟨s1.log, ls, is, cs, ms, s2, h1.trans k2, h2, hr, hls, k1, k3, h4⟩
      · rw [k4] at h4
        exact .inl ⟨e, s2, h1.trans k2, .notDeleted h2 hr hls k1 k3, h4⟩

theorem LogMem.textMode {a b : St} (h : LogMem a b) : b.smsTextMode = a.smsTextMode := by
  obtain ⟨_, _, _, rfl⟩ := h; rfl

theorem passOn_append (ms ms' : List Msg) (cs : List Callback) : passOn ms' (passOn ms cs) = passOn (ms ++ ms') cs := by
  simp [passOn]

/-- The loop over the states. -/
theorem stages_run : ∀ (sts : List Bool) (s : St), ListsWell env.reply s.smsTextMode →
    (∃ ms s1, LogMem s s1 ∧ Emptied env.reply s.smsTextMode sts s.log s1.log ms ∧
      processAll sts env s = (.ok (), { s1 with callbacks := passOn ms s.callbacks })) ∨
    ∃ e pre st rest l ms s1, sts = pre ++ st :: rest ∧ LogMem s s1 ∧ Emptied env.reply s.smsTextMode pre s.log l ms ∧
      NotEmptied env.reply s.smsTextMode st l s1.log ∧ processAll sts env s = (.error e, { s1 with callbacks := passOn ms s.callbacks })
  | [], s, _ => .inl ⟨[], s, .refl s, .done, rfl⟩
  | st :: sts, s, hw => by
    rcases stage_run st s hw with ⟨e, s1, h1, h2, h3⟩ | ⟨l, answer, is, cs, ms, s1, h1, h2, h3, h4, h5, h6, h7⟩
    · refine .inr ⟨e, [], st, sts, s.log, [], s1, rfl, h1, .done, h2, ?_⟩
      simp only [processAll, run_bind, h3]
      obtain ⟨_, _, _, rfl⟩ := h1
      rfl
    · have hrun : processAll (st :: sts) env s = processAll sts env { s1 with callbacks := passOn ms s.callbacks } := by
        simp only [processAll, run_bind, h7, callbackAll_run]
        obtain ⟨_, _, _, rfl⟩ := h1
        rfl
      have hm := h1.textMode
      rcases stages_run sts { s1 with callbacks := passOn ms s.callbacks } (by rw [← hm] at hw; exact hw) with
        ⟨ms', s2, k1, k2, k3⟩ | ⟨e, pre, st', rest, l', ms', s2, k0, k1, k2, k3, k4⟩
      · refine .inl ⟨ms ++ ms', { s2 with callbacks := s.callbacks }, ?_, ?_, ?_⟩
        · obtain ⟨_, _, _, rfl⟩ := h1
          obtain ⟨_, _, _, rfl⟩ := k1
          exact ⟨_, _, _, rfl⟩
        · refine .next h2 h3 h4 h5 h6 ?_
          rw [← hm]
          exact k2
        · rw [hrun, k3]
          simp [passOn_append]
      · refine .inr ⟨e, st :: pre, st', rest, l', ms ++ ms', { s2 with callbacks := s.callbacks }, by rw [k0]; rfl, ?_, ?_, ?_, ?_⟩
        · obtain ⟨_, _, _, rfl⟩ := h1
          obtain ⟨_, _, _, rfl⟩ := k1
          exact ⟨_, _, _, rfl⟩
        · refine .next h2 h3 h4 h5 h6 ?_
          rw [← hm]
          exact k2
        · rw [← hm]
          exact k3
        · rw [hrun, k4]
          simp [passOn_append]

/-! ### C69 -/

/-- The states in the order in which they are processed. -/
def processedStates (unreadOnly : Bool) : List Bool := if unreadOnly then [false] else [true, false]

/-- The stored messages are listed, deleted and then passed on: first those that have been read, unless only
unread ones are wanted. When something fails, exactly the messages of the states before it are passed on. -/
theorem C69_process (unreadOnly : Bool) (s : St) (hw : ListsWell env.reply s.smsTextMode) :
    (∃ ms s1, LogMem s s1 ∧ Emptied env.reply s.smsTextMode (processedStates unreadOnly) s.log s1.log ms ∧
      processStoredSms unreadOnly env s = (.ok (), { s1 with callbacks := passOn ms s.callbacks })) ∨
    ∃ e pre st rest l ms s1, processedStates unreadOnly = pre ++ st :: rest ∧ LogMem s s1 ∧ Emptied env.reply s.smsTextMode pre s.log l ms ∧
      NotEmptied env.reply s.smsTextMode st l s1.log ∧
      processStoredSms unreadOnly env s = (.error e, { s1 with callbacks := passOn ms s.callbacks }) := by
  rw [process_eq]
  exact stages_run _ s hw

/-- A modem whose only message that has been read is at 3 and whose only unread one is at 4; deleting `bad` fails. -/
def mixedStore (bad : PyStr) : Env := modemWith fun log =>
  if log.head? = some bad then some (.lines [py!"+CMS ERROR: 500"])
  else if log.head? = some py!"AT+CMGL=1\r" then some (.lines [py!"+CMGL: 3,1,,18", hiPdu, py!"OK"])
  else if log.head? = some py!"AT+CMGL=0\r" then some (.lines [py!"+CMGL: 4,0,,18", hiPdu, py!"OK"])
  else none

example : (processStoredSms false (mixedStore []) {}).1 = .ok () ∧
    (processStoredSms false (mixedStore []) {}).2.callbacks = [.smsReceived (hiMsg 0), .smsReceived (hiMsg 1)] ∧
    (processStoredSms false (mixedStore []) {}).2.log.reverse =
      [py!"AT+CMGL=1\r", py!"AT+CMGD=3,0\r", py!"AT+CMGL=0\r", py!"AT+CMGD=4,0\r"] := by decide +kernel

example : (processStoredSms true (mixedStore []) {}).2.callbacks = [.smsReceived (hiMsg 0)] ∧
    (processStoredSms true (mixedStore []) {}).2.log.reverse = [py!"AT+CMGL=0\r", py!"AT+CMGD=4,0\r"] := by decide +kernel

/-- What such a modem lists is a listing in the sense of the property. -/
example : Lists false [py!"+CMGL: 3,1,,18", hiPdu, py!"OK"] [3] [hiMsg 1] := by
  have h := Lists.pdu ⟨[⟨py!" ", py!"3", [], py!"1", py!",18", hiPdu⟩], [hiMsg 1], by
    intro e he
    obtain rfl := List.mem_singleton.1 he
    refine ⟨by simp [Blanks], by simp [Digits], by simp [Blanks], by simp [Digits], by decide⟩, .cons (.inl ⟨none, 18, some py!"+271234", 0, ⟨2013, 3, 14, 13, 2, 35, 0, some ⟨0, 7200, 0⟩⟩, ⟨none, py!"Hi"⟩, by decide +kernel, by rfl⟩) .nil⟩
  exact h

/-- After the failure for the unread messages those that had been read have been passed on. -/
example : (processStoredSms false (mixedStore py!"AT+CMGD=4,0\r") {}).1 = .error (.command .cms (some 500)) ∧
    (processStoredSms false (mixedStore py!"AT+CMGD=4,0\r") {}).2.callbacks = [.smsReceived (hiMsg 1)] := by decide +kernel

/-- A modem with two messages that refuses to delete the second. -/
def lastStays : Env := modemWith fun log =>
  if log.head? = some py!"AT+CMGD=4,0\r" then some (.lines [py!"+CMS ERROR: 500"]) else some ((twoMessages hiPdu).reply log)

/-- By default the messages of both states are processed. -/
theorem C69_default (s : St) : (processStoredSms : M Unit) env s = processStoredSms false env s ∧ processedStates false = [true, false] := ⟨rfl, rfl⟩

/-- When deleting one message fails, the ones that have been deleted before it are lost: they are neither on
the modem nor passed on. -/
theorem C69_lost : (processStoredSms false lastStays {}).1 = .error (.command .cms (some 500)) ∧
    (processStoredSms false lastStays {}).2.callbacks = [] ∧
    (processStoredSms false lastStays {}).2.log.reverse = [py!"AT+CMGL=1\r", py!"AT+CMGD=3,0\r", py!"AT+CMGD=4,0\r"] ∧
    Accepted lastStays.reply [py!"AT+CMGD=3,0\r", py!"AT+CMGL=1\r"] := by
  refine ⟨by decide +kernel, by decide +kernel, by decide +kernel, [py!"OK"], py!"OK", by rfl, by rfl, by decide +kernel, by decide⟩

end Gsm
