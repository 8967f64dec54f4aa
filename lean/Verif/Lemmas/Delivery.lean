import Verif.Spec.Delivery
import Verif.Lemmas.Queries
import Verif.Lemmas.DialFrame
import Verif.Props.ModemReading
/-! # Notifications about stored messages: lemmas -/
namespace Gsm
open M Spec

variable {env : Env}

/-! ### The lines -/

/-- The pattern of both lines. -/
def storedRegex (name : PyStr) : List Rx :=
  rxLit name ++ (rxStar isS :: (rxLit py!"\"" ++ (.op :: rxPlus (notC 34) :: .cl :: (rxLit py!"\"," ++ (.op :: rxPlus isD :: .cl :: [.eol])))))

theorem cmti_rx : cmtiRegex = storedRegex py!"+CMTI:" := by simp [cmtiRegex, storedRegex, rxGrp]
theorem cdsi_rx : cdsiRegex = storedRegex py!"+CDSI:" := by simp [cdsiRegex, storedRegex, rxGrp]

theorem stored_iff {name line : PyStr} {g : List PyStr} : rxGroups (storedRegex name) line = some g ↔ ∃ mem idx, g = [mem, idx] ∧ StoredAt name line mem idx := by
  unfold rxGroups rxMatch? storedRegex
  rw [Option.map_eq_some_iff]
  constructor
  · rintro ⟨⟨g', r⟩, h, rfl⟩
    obtain ⟨s1, rfl, k1⟩ := rxRun_lit_some h
    obtain ⟨b, s2, rfl, hb, _, _, k2⟩ := rxRun_rep_some k1
    obtain ⟨s3, rfl, k3⟩ := rxRun_lit_some k2
    rw [rxRun_op] at k3
    obtain ⟨mem, s4, rfl, hm, hm1, _, k4⟩ := rxRun_rep_some k3
    rw [rxRun_cl] at k4
    obtain ⟨s5, rfl, k5⟩ := rxRun_lit_some k4
    rw [rxRun_op] at k5
    obtain ⟨idx, t, rfl, hi, hi1, _, k6⟩ := rxRun_rep_some k5
    rw [rxRun_cl] at k6
    obtain ⟨hend, k7⟩ := rxRun_eol_some k6
    simp only [rxRun_nil, List.nil_append, Option.some.injEq, Prod.mk.injEq] at k7
    exact ⟨mem, idx, k7.1.symm, b, t, rfl, spaces_iff.2 hb, quotable_of hm hm1, digits_of hi hi1, hend⟩
  · rintro ⟨mem, idx, rfl, b, t, rfl, hb, hm, hi, ht⟩
    refine ⟨([mem, idx], t), ?_, rfl⟩
    rw [rxRun_lit]
    refine rxRun_rep_longest (spaces_iff.1 hb) (Nat.zero_le _) (fun c hc => by cases hc; decide) ?_
    rw [rxRun_lit, rxRun_op]
    refine rxRun_rep_longest (notin_class hm.2) (List.length_pos_iff.2 hm.1) (fun c hc => by cases hc; decide) ?_
    rw [rxRun_cl, rxRun_lit, rxRun_op]
    refine rxRun_rep_longest (digits_class hi) (List.length_pos_iff.2 hi.1) (fun c hc => by rcases ht with rfl | rfl <;> cases hc; decide) ?_
    rw [rxRun_cl, rxRun_eol ht, rxRun_nil]
    simp

theorem stored_none {name line : PyStr} (h : rxGroups (storedRegex name) line = none) : ∀ mem idx, ¬ StoredAt name line mem idx := by
  intro mem idx hs
  rw [stored_iff.2 ⟨mem, idx, rfl, hs⟩] at h
  cases h

/-! ### Reading and deleting -/

theorem choose_eq (s : St) (mem : PyStr) : selectCommands s (some mem) = chooseMemory s mem := by
  simp [selectCommands, chooseMemory, memoryCmd]

/-- Reading and deleting, with whatever follows. -/
theorem fetch_run (mem idx : PyStr) (s : St) :
    (∃ e s', NotFetched env s mem idx e s' ∧ ∀ {α : Type} (k : Msg → M α), (do let m ← readStoredSms idx (some mem); deleteStoredSms idx; k m : M α) env s = (.error e, s')) ∨
    ∃ m s', Fetched env s mem idx m s' ∧ ∀ {α : Type} (k : Msg → M α), (do let m ← readStoredSms idx (some mem); deleteStoredSms idx; k m : M α) env s = k m env s' := by
  obtain ⟨ok, s1, h1, h2, h3⟩ := C68_read (env := env) idx (some mem) s
  rw [choose_eq] at h2
  rcases h3 with ⟨rfl, ls, r, hr, ha, h3⟩ | ⟨rfl, e, h3⟩
  · have hA : Asked env s mem idx s1 r := ⟨h1, h2, ls, hr, ha⟩
    cases r with
    | error e => exact .inl ⟨e, s1, .unreadable hA, fun k => by rw [run_bind, h3]⟩
    | ok m =>
      obtain ⟨ok2, s2, k1, k2, k3⟩ := delete_trans (env := env) idx none s1
      replace k2 : Transmission env.reply [py!"AT+CMGD=" ++ idx ++ py!",0\r"] s1.log s2.log ok2 := by simpa [selectCommands, cmgdCmd] using k2
      rcases k3 with ⟨rfl, k3⟩ | ⟨rfl, e, k3⟩
      · exact .inr ⟨m, s2, ⟨s1, hA, k1, k2⟩, fun k => by rw [run_bind, h3]; simp only [run_bind, k3]⟩
      · exact .inl ⟨e, s2, .kept hA k1 k2, fun k => by rw [run_bind, h3]; simp only [run_bind, k3]⟩
  · exact .inl ⟨e, s1, .refused h1 h2, fun k => by rw [run_bind, h3]⟩

theorem Spec.OnlyWritten.trans {a b c : St} : OnlyWritten a b → OnlyWritten b c → OnlyWritten a c := LogMem.trans

theorem Spec.Fetched.only {s s' : St} {mem idx : PyStr} {m : Msg} (h : Fetched env s mem idx m s') : OnlyWritten s s' := by
  obtain ⟨s1, ⟨h1, _⟩, h2, _⟩ := h
  exact OnlyWritten.trans h1 h2

theorem Spec.NotFetched.only {s s' : St} {mem idx : PyStr} {e : PyErr} (h : NotFetched env s mem idx e s') : OnlyWritten s s' := by
  cases h with
  | refused h _ => exact h
  | unreadable h => exact h.1
  | kept h h' _ => exact OnlyWritten.trans h.1 h'

theorem received_effect (line : PyStr) (s : St) : MessageEffect env s line (handleSmsReceived line env s).1 (handleSmsReceived line env s).2 := by
  cases hg : rxGroups cmtiRegex line with
  | none =>
    simp only [handleSmsReceived, hg]
    exact .other (stored_none (by rw [← cmti_rx]; exact hg))
  | some g =>
    obtain ⟨mem, idx, rfl, hs⟩ := stored_iff.1 (by rw [← cmti_rx]; exact hg)
    simp only [handleSmsReceived, hg]
    rcases fetch_run (env := env) mem idx s with ⟨e, s', h1, h2⟩ | ⟨m, s', h1, h2⟩
    · rw [h2]
      exact .failed hs h1
    · rw [h2]
      exact .passed hs h1

theorem modify_mapIdx {α : Type} (l : List α) (i : Nat) (f : α → α) : l.modify i f = l.mapIdx fun j x => if some i = some j then f x else x := by
  apply List.ext_getElem?
  intro j
  rw [List.getElem?_modify, List.getElem?_mapIdx]
  by_cases h : i = j
  · simp [h]
  · simp [h]

theorem updateSent_run (report : Msg) (r ds : Int) (s : St) : updateSent report r ds env s = (.ok (), counted s report r ds) := by
  unfold updateSent counted
  rw [run_modify]
  cases h : dictGet s.sentSms r with
  | none =>
    have : s.sent.mapIdx (fun _ x => x) = s.sent := by simp [List.mapIdx_eq_zipIdx_map, ← List.unzip_fst]
    simp [this]
  | some i => simp only [modify_mapIdx]

theorem report_effect (line : PyStr) (s : St) : ReportEffect env s line (handleSmsStatusReport line env s).1 (handleSmsStatusReport line env s).2 := by
  cases hg : rxGroups cdsiRegex line with
  | none =>
    simp only [handleSmsStatusReport, hg]
    exact .other (stored_none (by rw [← cdsi_rx]; exact hg))
  | some g =>
    obtain ⟨mem, idx, rfl, hs⟩ := stored_iff.1 (by rw [← cdsi_rx]; exact hg)
    simp only [handleSmsStatusReport, hg]
    rcases fetch_run (env := env) mem idx s with ⟨e, s', h1, h2⟩ | ⟨m, s', h1, h2⟩
    · rw [h2]
      exact .failed hs h1
    · rw [h2]
      cases m with
      | received st number t text smsc => exact .message hs h1
      | report st r number t1 t2 ds =>
        have hev : s'.smsStatusReportEvent = s.smsStatusReportEvent := by obtain ⟨_, _, _, rfl⟩ := Fetched.only h1; rfl
        have hf : ReportFetched env s line r ds (.report st r number t1 t2 ds) s' := ⟨mem, idx, st, number, t1, t2, hs, rfl, h1⟩
        simp only [run_bind, updateSent_run, run_get]
        by_cases hn : s.smsStatusReportEvent = none
        · rw [if_neg (by simp [counted, hev, hn])]
          exact .passed hf hn
        · rw [if_pos (by simpa [counted, hev, Option.isSome_iff_ne_none] using hn)]
          exact .woken hf hn

/-! ### What leaves the wait alone -/

/-- What `sendSms` waits for. -/
def reportState (s : St) : Option Bool × List SmsEvent := (s.smsStatusReportEvent, s.smsTrace)

abbrev ReportFrame : St → St → Prop := Frame (fun _ => True) reportState

theorem rf_write (data term : PyStr) (pe : Bool) : Steps env ReportFrame (write data pe term) :=
  frame_write trivial fun _ _ _ => rfl

macro "rframe" : tactic => `(tactic| (steps frame_pre) <;> try first
  | exact rf_write _ _ _
  | exact frame_same rfl rfl)

theorem rf_callback (c : Callback) : Steps env ReportFrame (callback c) := by unfold callback; rframe
theorem rf_memory (m w : Option PyStr) : Steps env ReportFrame (setSmsMemory m w) := by unfold setSmsMemory; rframe
theorem rf_read (i : PyStr) (m : Option PyStr) : Steps env ReportFrame (readStoredSms i m) := by
  have := rf_memory (env := env) m none
  unfold readStoredSms; rframe
theorem rf_delete (i : PyStr) (m : Option PyStr) : Steps env ReportFrame (deleteStoredSms i m) := by
  have := rf_memory (env := env) m none
  unfold deleteStoredSms; rframe
theorem rf_received (l : PyStr) : Steps env ReportFrame (handleSmsReceived l) := by
  have h1 := fun i m => rf_read (env := env) i m
  have h2 := fun i => rf_delete (env := env) i none
  unfold handleSmsReceived; rframe <;> first | exact h1 _ _ | exact h2 _ | exact rf_callback _
theorem rf_ussd (ls : List PyStr) : Steps env ReportFrame (handleUssd ls) := by unfold handleUssd; rframe
theorem rf_setAnswered (i : Nat) (v : Bool) : Steps env ReportFrame (setAnswered i v) := by unfold setAnswered callback; rframe
theorem rf_answered (c : Option Int) : Steps env ReportFrame (handleCallAnswered c) := by
  have := fun i => rf_setAnswered (env := env) i true
  unfold handleCallAnswered; rframe <;> exact this _
theorem rf_ended (c : Option Int) (a b : Bool) : Steps env ReportFrame (handleCallEnded c a b) := by
  have := fun i => rf_setAnswered (env := env) i false
  unfold handleCallEnded; rframe <;> exact this _
theorem rf_initiated (a b : Int) : Steps env ReportFrame (handleCallInitiated a b) := by unfold handleCallInitiated; rframe
theorem rf_ringLoop (n : Option PyStr) : ∀ (l : List (Int × Nat)) (c : Option Nat), Steps env ReportFrame (ringLoop n l c)
  | [], c => by unfold ringLoop; rframe
  | (k, i) :: l, c => by
    have := fun c => rf_ringLoop n l c
    unfold ringLoop; rframe <;> exact this _
theorem rf_ringType (l : PyStr) : Steps env ReportFrame (ringType l) := by unfold ringType; rframe
theorem rf_callTypeOf (t : Option PyStr) : Steps env ReportFrame (callTypeOf t) := by unfold callTypeOf; rframe
theorem rf_registerNext (c : CallObj) : Steps env ReportFrame (registerNext c) := ⟨fun _ => frame_same rfl rfl⟩
theorem rf_incoming (ls : List PyStr) : Steps env ReportFrame (handleIncomingCall ls) := by
  unfold handleIncomingCall; rframe <;> first | exact rf_ringType _ | exact rf_ringLoop _ _ _ | exact rf_callback _ | exact rf_callTypeOf _ | exact rf_registerNext _
theorem rf_runCallHandler (h : CallHandler) (g : List PyStr) : Steps env ReportFrame (runCallHandler h g) := by
  unfold runCallHandler; rframe <;> first | exact rf_initiated _ _ | exact rf_answered _ | exact rf_ended _ _ _
theorem rf_clccQuery : Steps env ReportFrame clccQuery := by unfold clccQuery; rframe
theorem rf_pollStep (p : Poller) (seen : Option (Int × Int × Int × Int)) : Steps env ReportFrame (pollStep p seen) := by
  unfold pollStep; rframe <;> first | exact rf_initiated _ _ | exact rf_answered _ | exact rf_ended _ _ _
theorem rf_pollRound (p : Poller) : Steps env ReportFrame (pollRound p) := by
  unfold pollRound; rframe <;> first | exact rf_clccQuery | exact rf_pollStep _ _
theorem rf_poll (k : Nat) (s : St) : reportState ((Event.poll k).run env s).2 = reportState s := by
  simp only [Event.run]
  cases hp : s.pollers[k]? with
  | none => rfl
  | some p =>
    have := ((rf_pollRound (env := env) p).run s).2
    dsimp only
    rcases hr : pollRound p env s with ⟨_ | p', s'⟩ <;> (rw [hr] at this; exact this)

end Gsm
