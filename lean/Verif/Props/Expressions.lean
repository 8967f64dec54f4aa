import Verif.Lemmas.Expressions
import Verif.Props.ThreadConnect
/-! # Property C106: the expressions for stored messages -/
namespace Gsm
open Spec Comp

variable {env : Env}

/-! ### When they are there, they make no difference -/

/-- In one mode whose expressions have been compiled: as long as no thread changes the mode, whatever can happen can happen in the model without the expressions, and the other way round. -/
theorem C106_one_mode [PyUnicode] {b : Bool} {activities : List Activity} (ha : ∀ a ∈ activities, ¬ SwitchesTo (!b) a) {x : Lib} (hm : x.st.smsTextMode = b) (hx : CompiledFor b x) :
    (∀ schedule, ∃ schedule', EndsAlike (performWith env schedule activities x).1 (performActivities env schedule' activities x.st).1 ∧
      (performWith env schedule activities x).2.st = (performActivities env schedule' activities x.st).2) ∧
    ∀ schedule', ∃ schedule, EndsAlike (performWith env schedule activities x).1 (performActivities env schedule' activities x.st).1 ∧
      (performWith env schedule activities x).2.st = (performActivities env schedule' activities x.st).2 := by
  have hs : SimAll env (fun x => x.st.smsTextMode = b ∧ CompiledFor b x) (activities.map Activity.comp) (activities.map Activity.prog) :=
    simAll_activities (serves_mode b) activities fun a h v hv x hx => ⟨by
      by_cases hb : v = b
      · exact hb
      · exact absurd (show SwitchesTo (!b) a from by cases v <;> cases b <;> simp_all) (ha a h), hx.2⟩
  refine ⟨fun schedule => ?_, fun schedule' => ?_⟩
  · obtain ⟨schedule', h1, h2, -⟩ := sim_threads schedule hs ⟨hm, hx⟩
    exact ⟨schedule', simAll_alike h1, h2⟩
  · obtain ⟨schedule, h1, h2, -⟩ := sim_threads_back schedule' hs ⟨hm, hx⟩
    exact ⟨schedule, simAll_alike h1, h2⟩

/-- When the expressions for both modes have been compiled, also if the mode is changed. -/
theorem C106_both_modes [PyUnicode] (activities : List Activity) {x : Lib} (hx : CompiledFor true x ∧ CompiledFor false x) :
    (∀ schedule, ∃ schedule', EndsAlike (performWith env schedule activities x).1 (performActivities env schedule' activities x.st).1 ∧
      (performWith env schedule activities x).2.st = (performActivities env schedule' activities x.st).2) ∧
    ∀ schedule', ∃ schedule, EndsAlike (performWith env schedule activities x).1 (performActivities env schedule' activities x.st).1 ∧
      (performWith env schedule activities x).2.st = (performActivities env schedule' activities x.st).2 := by
  have hs := simAll_activities (env := env) serves_both activities fun _ _ _ _ _ h => h
  refine ⟨fun schedule => ?_, fun schedule' => ?_⟩
  · obtain ⟨schedule', h1, h2, -⟩ := sim_threads schedule hs hx
    exact ⟨schedule', simAll_alike h1, h2⟩
  · obtain ⟨schedule, h1, h2, -⟩ := sim_threads_back schedule' hs hx
    exact ⟨schedule, simAll_alike h1, h2⟩

/-- Without other threads: an activity does what it does in the model without the expressions, and they are there afterwards, also if the mode is changed. -/
theorem C106_alone [PyUnicode] (a : Activity) {x : Lib} (hx : Usable x) :
    (a.comp.run env x).1 = (activityAlone a env x.st).1 ∧ (a.comp.run env x).2.st = (activityAlone a env x.st).2 ∧ Usable (a.comp.run env x).2 := by
  rw [← C105_alone]
  by_cases h : ∃ v, SwitchesTo v a
  · obtain ⟨v, rfl⟩ := h
    have := sim_run (env := env) (sim_textMode inv_true (v := v) fun _ => trivial) (x := x) trivial
    exact ⟨this.1, this.2.1, usable_textMode v hx⟩
  · obtain ⟨h1, h2, h3, h4⟩ := sim_run (env := env) (sim_activity (serves_usable x.st.smsTextMode) a fun v hv => absurd ⟨v, hv⟩ h) (x := x) ⟨rfl, hx⟩
    exact ⟨h1, h2, by unfold Usable; rw [h3]; exact h4⟩

/-- The same of a whole session. -/
theorem C106_session [PyUnicode] : ∀ (activities : List Activity) {x : Lib}, Usable x →
    (seriallyWith env activities x).1 = (activitiesSerially env activities x.st).1 ∧ (seriallyWith env activities x).2.st = (activitiesSerially env activities x.st).2 ∧
      Usable (seriallyWith env activities x).2
  | [], _, hx => ⟨rfl, rfl, hx⟩
  | a :: as, x, hx => by
    obtain ⟨h1, h2, h3⟩ := C106_alone (env := env) a hx
    have := C106_session as h3
    rw [h2] at this
    exact ⟨by simp only [seriallyWith, activitiesSerially, h1, this.1], this.2⟩

/-- Connecting needs none of them; when it has succeeded, those for the mode are there. -/
theorem C106_connect [PyUnicode] (pin : Option PyStr) {x : Lib} (hx : BothOrNone x) :
    ((Comp.connect pin).run env x).1 = (Gsm.connect pin env x.st).1 ∧ ((Comp.connect pin).run env x).2.st = (Gsm.connect pin env x.st).2 ∧
      ((Gsm.connect pin env x.st).1 = .ok () → Usable ((Comp.connect pin).run env x).2) := by
  obtain ⟨h1, h2, -⟩ := sim_run (env := env) (sim_connect inv_true pin) (x := x) trivial
  rw [Prog.same_connect pin env x.st] at h1 h2
  exact ⟨h1, h2, fun h => usable_connect hx (h1.trans h)⟩

/-! ### When they are not there -/

/-- Reading a message: the commands are sent, and if the modem answers them the result is an `AttributeError`, whatever the answer. -/
theorem C106_missing {x : Lib} (hx : Missing x) (i : PyStr) (m : Option PyStr) : (Comp.readStoredSms i m).run env x =
    (match (do setSmsMemory m; write (cmgrCmd i) : M (List PyStr)) env x.st with | (.ok _, s) => (.error .attributeError, { x with st := s }) | (.error e, s) => (.error e, { x with st := s })) := by
  rw [← Prog.same_bind (Prog.same_memory m) (fun _ => Prog.same_write (cmgrCmd i) true [13]) env x.st, Prog.run_bind]
  unfold Comp.readStoredSms
  rw [Comp.run_bind, run_lift]
  have hk := run_mode (env := env) (Prog.walk_memory Prog.modeKept m) x.st
  generalize Prog.run env (Prog.setSmsMemory m) x.st = y at hk ⊢
  obtain ⟨_ | ⟨⟨⟩⟩, s⟩ := y
  · rfl
  · dsimp only at hk ⊢
    rw [Comp.run_bind, run_lift]
    have hk' := run_mode (env := env) (Prog.modeKept.write (cmgrCmd i) true [13]) s
    dsimp only
    generalize Prog.run env (Prog.write (cmgrCmd i)) s = y at hk' ⊢
    obtain ⟨_ | ls, s'⟩ := y
    · rfl
    · have hm : s'.smsTextMode = x.st.smsTextMode := hk'.trans hk
      unfold Missing at hx
      dsimp only at hk' ⊢
      show run env (if s'.smsTextMode = true then _ else _) _ = _
      rw [hm]
      split at hx
      · next h =>
        rw [if_pos h, Comp.run_bind]
        simp [need, look, Bind.bind, Comp.bind, Comp.run, hx, raise, pure]
      · next h =>
        rw [if_neg h, Comp.run_bind]
        simp [need, look, Bind.bind, Comp.bind, Comp.run, hx, raise, pure]

theorem taken_rfl (s : St) : NothingTaken s s := ⟨rfl, [], rfl, fun _ h => nomatch h⟩
theorem taken_trans (a b c : St) (h : NothingTaken a b) (h' : NothingTaken b c) : NothingTaken a c := by
  obtain ⟨h1, n1, h2, h3⟩ := h
  obtain ⟨h4, n2, h5, h6⟩ := h'
  exact ⟨h4.trans h1, n2 ++ n1, by rw [h5, h2, List.append_assoc], fun c hc => (List.mem_append.1 hc).elim (h6 c) (h3 c)⟩
theorem writes_taken : Prog.Writes Prog.Always NothingTaken fun c => ¬ py!"AT+CMGD" <+: c :=
  ⟨fun s _ => taken_rfl s, fun s _ _ => ⟨rfl, [], rfl, fun _ h => nomatch h⟩, fun s c hc _ => ⟨rfl, [c], rfl, fun _ h => by cases h with | head => exact hc | tail _ h => cases h⟩⟩
theorem keeps_asking (m : Option PyStr) (i : PyStr) : Prog.Keeps env Prog.Always NothingTaken Prog.Any (do Prog.setSmsMemory m; Prog.write (cmgrCmd i)) := by
  have hc (d : PyStr) (h : d.take 6 ≠ py!"AT+CMG" ∨ (d.drop 6).head? ≠ some 68) (hl : 7 ≤ d.length) : ¬ py!"AT+CMGD" <+: d ++ [13] := by
    rintro ⟨t, ht⟩
    have h1 : (d ++ [13]).take 7 = py!"AT+CMGD" := by rw [← ht]; rfl
    rw [List.take_append_of_le_length hl] at h1
    rcases h with h | h
    · exact h (by have := congrArg (List.take 6) h1; simpa [List.take_take] using this)
    · have := congrArg (List.drop 6) h1
      rw [List.drop_take] at this
      cases hd : d.drop 6 with
      | nil => rw [hd] at this; cases this
      | cons c cs => rw [hd] at this h; simp at this h; exact h this
  refine Prog.keeps_bind (Q := Prog.Any) ?_ fun _ _ => Prog.keeps_mono (Prog.keeps_write writes_taken (hc _ (.inr (by simp [cmgrCmd])) (by simp [cmgrCmd]))) fun _ _ => trivial
  unfold Prog.setSmsMemory
  cases m with
  | none => trivial
  | some mem =>
    refine Prog.keeps_look writes_taken fun s _ => Prog.keeps_ite (fun _ => ?_) fun _ => trivial
    exact Prog.keeps_bind (Prog.keeps_write writes_taken (hc _ (.inl (by simp [cpmsCmd])) (by simp [cpmsCmd]))) fun _ _ => Prog.keeps_change fun s _ => taken_rfl s

/-- So a message that is announced then is not passed on; it stays where it is. -/
theorem C106_missed {x : Lib} (hx : Missing x) {line mem idx : PyStr} (hl : StoredAt py!"+CMTI:" line mem idx) :
    (∃ e, ((Comp.handleSmsReceived line).run env x).1 = .error e) ∧ NothingTaken x.st ((Comp.handleSmsReceived line).run env x).2.st := by
  have hg : rxGroups cmtiRegex line = some [mem, idx] := by rw [cmti_rx]; exact stored_iff.2 ⟨mem, idx, rfl, hl⟩
  have hk := run_keeps (env := env) taken_rfl taken_trans (keeps_asking (some mem) idx) x.st
  unfold Comp.handleSmsReceived
  rw [hg]
  dsimp only
  rw [Comp.run_bind, C106_missing hx]
  rw [Prog.same_bind (Prog.same_memory (some mem)) (fun _ => Prog.same_write (cmgrCmd idx) true [13]) env x.st] at hk
  generalize ((do setSmsMemory (some mem); write (cmgrCmd idx) : M (List PyStr)) env x.st) = y at hk ⊢
  obtain ⟨_ | ls, s⟩ := y
  · exact ⟨⟨_, rfl⟩, hk⟩
  · exact ⟨⟨_, rfl⟩, hk⟩

/-! ### Examples -/

attribute [local instance] asciiUnicode

/-- The second thread runs to its end after `n` steps of the first. -/
def interruptedWith (env : Env) (n : Nat) (activities : List Activity) (x : Lib) : List (Comp Unit) × Lib := performWith env (List.replicate n 0 ++ List.replicate 40 1 ++ List.replicate 80 0) activities x

/-- The library before `connect`, with text mode chosen. -/
def unconnected : Lib := { st := beforeConnect }
/-- After `connect`, in PDU mode. -/
def connectedLib : Lib := ((Comp.connect none).run connectModem { st := {} }).2

/-- The modem has a status report at place 3. -/
def statusModem : Env := modemWith fun log =>
  if log.head? = some py!"AT+CMGR=3\r" then some (.lines [py!"+CMGR: ,6,20,\"+27\",145,\"13/04/29,19:58:00+04\",\"13/04/29,19:59:00+04\",0", py!"OK"]) else none

/-- The hypotheses hold after `connect`; then a session passes the message on, in both modes. -/
example : Usable connectedLib ∧ BothOrNone unconnected ∧ Missing unconnected ∧ ¬ Missing connectedLib := by unfold Usable BothOrNone Missing CompiledFor; decide +kernel
example : (seriallyWith connectModem [.connect none, .task (.message (.received py!"+CMTI: \"SM\",3")), .task (.message (.setTextMode false))] unconnected).1 = [.ok (), .ok (), .ok ()] ∧
    toldTexts (seriallyWith connectModem [.connect none, .task (.message (.received py!"+CMTI: \"SM\",3")), .task (.message (.setTextMode false))] unconnected).2.st = [py!"in SM"] := by decide +kernel
/-- Once both modes have been used, nothing is missing any more. -/
example : CompiledFor true ((Comp.setSmsTextMode true).run connectModem connectedLib).2 ∧ CompiledFor false ((Comp.setSmsTextMode true).run connectModem connectedLib).2 := by unfold CompiledFor; decide +kernel
/-- Text mode chosen before `connect`: the expressions are there from then on. -/
example : Usable ((Comp.setSmsTextMode true).run connectModem { st := {} }).2 := by unfold Usable CompiledFor BothOrNone; decide +kernel

/-- The message is read and marked as read, but not passed on. -/
example : ((Comp.handleSmsReceived py!"+CMTI: \"SM\",3").run connectModem unconnected).1 = .error .attributeError ∧
    ((Comp.handleSmsReceived py!"+CMTI: \"SM\",3").run connectModem unconnected).2.st.log = [py!"AT+CMGR=3\r", py!"AT+CPMS=\"SM\"\r"] := by decide +kernel

/-! ### What goes wrong -/

/-- A message that is announced before `connect` has come to compiling: its handler fails, although both threads get the answers they want; when it is announced later it is passed on. -/
theorem C106_early_violated : ∀ n < 29,
    resultsWith (interruptedWith connectModem n connectAndMessage unconnected).1 = [some (.ok ()), some (.error .attributeError)] ∧
    toldTexts (interruptedWith connectModem n connectAndMessage unconnected).2.st = [] ∧ heldAt py!"SM" (interruptedWith connectModem n connectAndMessage unconnected).2.st.log = true ∧
    toldTexts (interruptedWith connectModem (29 + n) connectAndMessage unconnected).2.st = [py!"in SM"] := by decide +kernel

/-- A message that is announced while the mode is changed for the first time: the setter assigns the mode before it compiles. -/
theorem C106_switch_violated : ∃ n, Usable connectedLib ∧
    resultsWith (interruptedWith connectModem n [.task (.message (.setTextMode true)), .task (.message (.received py!"+CMTI: \"SM\",3"))] connectedLib).1 = [some (.ok ()), some (.error .attributeError)] ∧
    toldTexts (interruptedWith connectModem n [.task (.message (.setTextMode true)), .task (.message (.received py!"+CMTI: \"SM\",3"))] connectedLib).2.st = [] ∧
    toldTexts (interruptedWith connectModem 40 [.task (.message (.setTextMode true)), .task (.message (.received py!"+CMTI: \"SM\",3"))] connectedLib).2.st = [py!"in SM"] :=
  ⟨5, by unfold Usable CompiledFor BothOrNone; decide +kernel⟩

/-- A status report that is announced between the compiling of the two expressions for text mode. -/
theorem C106_report_violated : ∃ n, Usable connectedLib ∧
    resultsWith (interruptedWith statusModem n [.task (.message (.setTextMode true)), .task (.message (.statusReport py!"+CDSI: \"SM\",3"))] connectedLib).1 = [some (.ok ()), some (.error .attributeError)] ∧
    (interruptedWith statusModem n [.task (.message (.setTextMode true)), .task (.message (.statusReport py!"+CDSI: \"SM\",3"))] connectedLib).2.st.callbacks.length = 0 ∧
    resultsWith (interruptedWith statusModem 40 [.task (.message (.setTextMode true)), .task (.message (.statusReport py!"+CDSI: \"SM\",3"))] connectedLib).1 = [some (.ok ()), some (.ok ())] ∧
    (interruptedWith statusModem 40 [.task (.message (.setTextMode true)), .task (.message (.statusReport py!"+CDSI: \"SM\",3"))] connectedLib).2.st.callbacks.length = 1 :=
  ⟨8, by unfold Usable CompiledFor BothOrNone; decide +kernel⟩

/-- The same, with the mode changed by two threads at once: the second one takes the first expression as a sign that both are there, and returns; a status report that is announced after that is lost all the same. -/
def twoSwitches : List Activity := [.task (.message (.setTextMode true)), .task (.message (.setTextMode true)), .task (.message (.statusReport py!"+CDSI: \"SM\",3"))]

theorem C106_switched_violated : ∃ sched,
    resultsWith (performWith statusModem sched twoSwitches connectedLib).1 = [none, some (.ok ()), none] ∧
    resultsWith (performWith statusModem (sched ++ List.replicate 40 2 ++ List.replicate 40 0) twoSwitches connectedLib).1 = [some (.ok ()), some (.ok ()), some (.error .attributeError)] ∧
    (performWith statusModem (sched ++ List.replicate 40 2 ++ List.replicate 40 0) twoSwitches connectedLib).2.st.callbacks.length = 0 :=
  ⟨[1] ++ List.replicate 8 0 ++ List.replicate 40 1, by decide +kernel⟩

end Gsm
