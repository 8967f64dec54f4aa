import Verif.Lemmas.ModemSteps
import Verif.Spec.ModemLog
/-! # What the operations are made of

Every operation is a sequence of the atomic changes below (`Op.run_reach`), so that an invariant has to
be checked for those only. -/
namespace Gsm
open M

/-- Any other text. -/
def PlainCmd (c : PyStr) : Prop := ¬ Spec.SelectsMode c ∧ ¬ Spec.SelectsMemory c

/-- Any other text that does not change the number of the SMS centre either. -/
def CalmCmd (c : PyStr) : Prop := PlainCmd c ∧ ¬ Spec.AffectsSmsc c

inductive Atom (env : Env) : St → St → Prop
  | cmd (s : St) (c : PyStr) (k w : Nat) : CalmCmd c →
      Atom env s { s with log := List.replicate k c ++ s.log, writeWait := w }
  | textMode (s : St) (v : Bool) : Atom env s (setSmsTextMode v env s).2
  | memory (s : St) (m : Option PyStr) : Atom env s (setSmsMemory m none env s).2
  | getSmsc (s : St) : Atom env s (getSmsc env s).2
  | setSmsc (s : St) (n : Option PyStr) : Atom env s (setSmsc n env s).2
  | ussd (s : St) (e : Option Bool) (r : Option Ussd) : Atom env s { s with ussdSessionEvent := e, ussdResponse := r }
  | reportEvent (s : St) (e : Option Bool) : Atom env s { s with smsStatusReportEvent := e }
  | dialEvent (s : St) (e : Option Bool) (r : Option (Int × Int)) : Atom env s { s with dialEvent := e, dialResponse := r }
  | extended (s : St) : Atom env s { s with extendedIncomingCallIndication := false }
  | callback (s : St) (c : Callback) : Atom env s { s with callbacks := c :: s.callbacks }
  | pollers (s : St) (p : List Poller) : Atom env s { s with pollers := p }
  | sent (s : St) (destination text : PyStr) (reference : Int) :
      Atom env s (recordSent destination text reference env s).2
  | report (s : St) (st reference ds : Int) (number : Option PyStr) (t1 t2 : DateTime) :
      Atom env s (updateSent (.report st reference number t1 t2 ds) reference ds env s).2
  | ring (s : St) (i : Nat) : Atom env s { s with calls := s.calls.modify i fun c => { c with ringCount := c.ringCount + 1 } }
  | newCall (s : St) (c : CallObj) : c.active = true → c.ringing = c.incoming → c.answered = false →
      (c.incoming = true → c.id = s.activeCalls.length + 1) →
      Atom env s { s with calls := s.calls ++ [c], activeCalls := dictSet s.activeCalls c.id s.calls.length }
  | answered (s : St) (i : Nat) (k : Int) : dictGet s.activeCalls k = some i → Atom env s (setAnswered i true env s).2
  | answeredFirst (s : St) (i : Nat) : firstOutgoing s true = some i → Atom env s (setAnswered i true env s).2
  | ended (s : St) (callId : Option Int) (search filter : Bool) : Atom env s (handleCallEnded callId search filter env s).2
  | hangup (s : St) (i : Nat) : Atom env s (hangup i env s).2
  | answer (s : St) (i : Nat) : Atom env s (answer i env s).2

/-- Any number of atomic changes. -/
inductive Reach (env : Env) : St → St → Prop
  | refl (s : St) : Reach env s s
  | step {a b c : St} : Atom env a b → Reach env b c → Reach env a c

theorem Reach.trans {env : Env} {a b c : St} (h1 : Reach env a b) (h2 : Reach env b c) : Reach env a c := by
  induction h1 with
  | refl => exact h2
  | step h _ ih => exact .step h (ih h2)

theorem Reach.one {env : Env} {a b : St} (h : Atom env a b) : Reach env a b := .step h (.refl _)

theorem reach_pre (env : Env) : IsPre (Reach env) := ⟨.refl, .trans⟩

variable {env : Env}

theorem reach_write {data term : PyStr} {pe : Bool} (h : CalmCmd (data ++ term)) : Steps env (Reach env) (write data pe term) :=
  Steps.write fun s k w => .one (.cmd s _ k w h)

/-- Recognising harmless commands. -/
theorem plain_of_prefix {p c : PyStr} (hp : p <+: c) (h1 : ¬ p <+: py!"AT+CMGF=0\r") (h2 : ¬ p <+: py!"AT+CMGF=1\r")
    (h3 : ¬ p <+: py!"AT+CPMS=") (h4 : ¬ py!"AT+CPMS=" <+: p) : PlainCmd c := by
  refine ⟨?_, ?_⟩
  · rintro (rfl | rfl)
    · exact h1 hp
    · exact h2 hp
  · rintro ⟨h, _⟩
    rcases List.prefix_or_prefix_of_prefix hp h with h | h
    · exact h3 h
    · exact h4 h

theorem plain_of_suffix {c : PyStr} (h : [26] <:+ c) : PlainCmd c := by
  obtain ⟨t, rfl⟩ := h
  refine ⟨?_, ?_⟩
  · rintro (h | h)
    · have := congrArg List.getLast? h; simp at this
    · have := congrArg List.getLast? h; simp at this
  · rintro ⟨_, ⟨t', h⟩, _⟩
    have := congrArg List.getLast? h; simp at this

/-- `plain "AT+X"`: the command starts with this text. -/
theorem plain_prefix (p rest : PyStr) (h1 : p.isPrefixOf py!"AT+CMGF=0\r" = false := by decide) (h2 : p.isPrefixOf py!"AT+CMGF=1\r" = false := by decide)
    (h3 : p.isPrefixOf py!"AT+CPMS=" = false := by decide) (h4 : py!"AT+CPMS=".isPrefixOf p = false := by decide) : PlainCmd (p ++ rest) := by
  refine plain_of_prefix (List.prefix_append p rest) ?_ ?_ ?_ ?_ <;> rw [← List.isPrefixOf_iff_prefix] <;> simp_all

theorem plain_const (c : PyStr) (h1 : c ≠ py!"AT+CMGF=0\r" := by decide) (h2 : c ≠ py!"AT+CMGF=1\r" := by decide)
    (h3 : py!"AT+CPMS=".isPrefixOf c = false := by decide) : PlainCmd c := by
  refine ⟨fun h => h.elim h1 h2, fun h => ?_⟩
  have := List.isPrefixOf_iff_prefix.2 h.1
  rw [h3] at this
  cases this

theorem calm_of_prefix {p c : PyStr} (h : PlainCmd c) (hp : p <+: c) (h1 : ¬ p <+: py!"AT+CSCA=") (h2 : ¬ py!"AT+CSCA=" <+: p)
    (h3 : ¬ p <+: py!"AT+CSMP=") (h4 : ¬ py!"AT+CSMP=" <+: p) : CalmCmd c := by
  refine ⟨h, ?_⟩
  rintro ⟨h | h, _⟩
  · rcases List.prefix_or_prefix_of_prefix hp h with h | h
    · exact h1 h
    · exact h2 h
  · rcases List.prefix_or_prefix_of_prefix hp h with h | h
    · exact h3 h
    · exact h4 h

theorem calm_of_suffix {c : PyStr} (h : [26] <:+ c) : CalmCmd c := by
  refine ⟨plain_of_suffix h, ?_⟩
  obtain ⟨t, rfl⟩ := h
  rintro ⟨_, ⟨t', h⟩⟩
  have := congrArg List.getLast? h; simp at this

theorem calm_prefix (p rest : PyStr) (h1 : p.isPrefixOf py!"AT+CMGF=0\r" = false := by decide) (h2 : p.isPrefixOf py!"AT+CMGF=1\r" = false := by decide)
    (h3 : p.isPrefixOf py!"AT+CPMS=" = false := by decide) (h4 : py!"AT+CPMS=".isPrefixOf p = false := by decide)
    (h5 : p.isPrefixOf py!"AT+CSCA=" = false := by decide) (h6 : py!"AT+CSCA=".isPrefixOf p = false := by decide)
    (h7 : p.isPrefixOf py!"AT+CSMP=" = false := by decide) (h8 : py!"AT+CSMP=".isPrefixOf p = false := by decide) : CalmCmd (p ++ rest) := by
  refine calm_of_prefix (plain_prefix p rest h1 h2 h3 h4) (List.prefix_append p rest) ?_ ?_ ?_ ?_ <;> rw [← List.isPrefixOf_iff_prefix] <;> simp_all

theorem calm_const (c : PyStr) (h1 : c ≠ py!"AT+CMGF=0\r" := by decide) (h2 : c ≠ py!"AT+CMGF=1\r" := by decide)
    (h3 : py!"AT+CPMS=".isPrefixOf c = false := by decide) (h4 : py!"AT+CSCA=".isPrefixOf c = false := by decide)
    (h5 : py!"AT+CSMP=".isPrefixOf c = false := by decide) : CalmCmd c := by
  refine ⟨plain_const c h1 h2 h3, ?_⟩
  rintro ⟨h | h, _⟩
  · have := List.isPrefixOf_iff_prefix.2 h
    rw [h4] at this
    cases this
  · have := List.isPrefixOf_iff_prefix.2 h
    rw [h5] at this
    cases this

/-! ### One lemma for each method -/

syntax "reach_step" : tactic
macro_rules
  | `(tactic| reach_step) => `(tactic| first
    | (with_reducible exact Steps.pure (reach_pre _) _)
    | (with_reducible exact Steps.get (reach_pre _))
    | (with_reducible exact Steps.raise (reach_pre _) _)
    | (with_reducible exact Steps.ofExcept (reach_pre _) _)
    | (with_reducible exact Steps.firstLine (reach_pre _) _)
    | assumption
    | (with_reducible refine Steps.bind (reach_pre _) ?_ ?_)
    | (with_reducible refine Steps.except (reach_pre _) ?_ ?_)
    | (with_reducible refine Steps.tryCommand (reach_pre _) ?_)
    | (with_reducible exact reach_write (calm_const _))
    | (with_reducible refine Steps.modify fun s => .one ?_; first
        | exact .ussd s _ _ | exact .reportEvent s _ | exact .dialEvent s _ _ | exact .callback s _
        | exact .extended s | exact .ring s _)
    | (with_reducible dsimp only)
    | intro _
    | split)
macro "reach" : tactic => `(tactic| repeat' reach_step)

theorem reach_signalStrength : Steps env (Reach env) signalStrength := by unfold signalStrength; reach
theorem reach_manufacturer : Steps env (Reach env) manufacturer := by unfold manufacturer; reach
theorem reach_model : Steps env (Reach env) model := by unfold model; reach
theorem reach_revision : Steps env (Reach env) revision := by unfold revision; reach
theorem reach_imei : Steps env (Reach env) imei := by unfold imei; reach
theorem reach_imsi : Steps env (Reach env) imsi := by unfold imsi; reach
theorem reach_networkName : Steps env (Reach env) networkName := by unfold networkName; reach
theorem reach_supportedCommands : Steps env (Reach env) supportedCommands := by unfold supportedCommands; reach
theorem reach_getSmsc : Steps env (Reach env) getSmsc := ⟨fun s => .one (.getSmsc s)⟩
theorem reach_setSmsc (n : Option PyStr) : Steps env (Reach env) (setSmsc n) := ⟨fun s => .one (.setSmsc s n)⟩
theorem reach_coverage : ∀ (rounds : Nat) (b : Bool), Steps env (Reach env) (coverageLoop rounds b)
  | 0, _ => by unfold coverageLoop; reach
  | rounds + 1, true => by
    have h1 := reach_coverage rounds true
    have h2 := reach_coverage rounds false
    unfold coverageLoop; reach
  | rounds + 1, false => by
    have h2 := reach_coverage rounds false
    have h3 := reach_signalStrength (env := env)
    unfold coverageLoop; reach

theorem reach_memory (m : Option PyStr) : Steps env (Reach env) (setSmsMemory m) := ⟨fun s => .one (.memory s m)⟩

theorem reach_cmgr (i : PyStr) : Steps env (Reach env) (write (cmgrCmd i)) :=
  reach_write (by simpa [cmgrCmd] using calm_prefix py!"AT+CMGR" _)
theorem reach_cmgd (i : PyStr) : Steps env (Reach env) (write (cmgdCmd i)) :=
  reach_write (by simpa [cmgdCmd] using calm_prefix py!"AT+CMGD" _)

theorem reach_read (i : PyStr) (m : Option PyStr) : Steps env (Reach env) (readStoredSms i m) := by
  have h1 := reach_memory (env := env) m
  have h2 := reach_cmgr (env := env) i
  unfold readStoredSms; reach
theorem reach_delete (i : PyStr) (m : Option PyStr) : Steps env (Reach env) (deleteStoredSms i m) := by
  have h1 := reach_memory (env := env) m
  have h2 := reach_cmgd (env := env) i
  unfold deleteStoredSms; reach
theorem reach_deleteMultiple (f : Int) (m : Option PyStr) : Steps env (Reach env) (deleteMultipleStoredSms f m) := by
  have h1 := reach_memory (env := env) m
  have h2 : Steps env (Reach env) (write (py!"AT+CMGD=1," ++ intStr f)) :=
    reach_write (by simpa using calm_prefix py!"AT+CMGD" _)
  unfold deleteMultipleStoredSms; reach
theorem reach_deleteAll : ∀ is : List Int, Steps env (Reach env) (deleteAll is)
  | [] => by unfold deleteAll; reach
  | i :: is => by
    have h1 := reach_deleteAll is
    have h2 := reach_delete (env := env) (intStr i) none
    unfold deleteAll; reach
theorem calm_list {t : Bool} {st : Int} {c : PyStr} (h : listCommand t st = .ok c) : CalmCmd (c ++ [13]) := by
  unfold listCommand at h
  split at h
  · split at h
    · cases h
    · cases h; simpa using calm_prefix py!"AT+CMGL" _
  · cases h; simpa using calm_prefix py!"AT+CMGL" _
theorem reach_list (st : Int) (m : Option PyStr) (d : Bool) : Steps env (Reach env) (listStoredSms st m d) := by
  have h1 := reach_memory (env := env) m
  have h4 := reach_deleteMultiple (env := env) 4 none
  have h5 : ∀ l : List Int, Steps env (Reach env) (deleteSet l) := fun l => ⟨fun s => (reach_deleteAll _).run s⟩
  unfold listStoredSms deleteListed
  refine Steps.bind (reach_pre env) h1 fun _ => Steps.bind (reach_pre env) (Steps.get (reach_pre env)) fun s => Steps.ofExcept_bind (reach_pre env) fun c hc => ?_
  have h2 : Steps env (Reach env) (write c) := reach_write (calm_list hc)
  reach <;> exact h5 _
theorem reach_callback (c : Callback) : Steps env (Reach env) (callback c) := by unfold callback; reach
theorem reach_callbackAll : ∀ ms : List Msg, Steps env (Reach env) (callbackAll ms)
  | [] => by unfold callbackAll; reach
  | m :: ms => by
    have h1 := reach_callbackAll ms
    have h2 := reach_callback (env := env) (.smsReceived m)
    unfold callbackAll; reach
theorem reach_process (u : Bool) : Steps env (Reach env) (processStoredSms u) := by
  have h1 := reach_list (env := env) 1 none true
  have h2 := reach_list (env := env) 0 none true
  have h3 := reach_callbackAll (env := env)
  unfold processStoredSms; reach <;> exact h3 _
theorem reach_handleSmsReceived (l : PyStr) : Steps env (Reach env) (handleSmsReceived l) := by
  have h1 := reach_read (env := env)
  have h2 := reach_delete (env := env)
  have h3 := reach_callback (env := env)
  unfold handleSmsReceived; reach <;> first | exact h1 _ _ | exact h2 _ _ | exact h3 _
theorem reach_handleSmsStatusReport (l : PyStr) : Steps env (Reach env) (handleSmsStatusReport l) := by
  have h1 := reach_read (env := env)
  have h2 := reach_delete (env := env)
  have h3 := reach_callback (env := env)
  have h4 : ∀ st reference ds number t1 t2, Steps env (Reach env) (updateSent (.report st reference number t1 t2 ds) reference ds) :=
    fun st reference ds number t1 t2 => ⟨fun s => .one (.report s st reference ds number t1 t2)⟩
  unfold handleSmsStatusReport; reach <;> first | exact h1 _ _ | exact h2 _ _ | exact h3 _ | exact h4 _ _ _ _ _ _

theorem reach_sendPdus : ∀ (ps : List Pdu) (r : Option PyStr), Steps env (Reach env) (sendPdus ps r)
  | [], r => by unfold sendPdus; reach
  | p :: ps, r => by
    have h1 := reach_sendPdus ps
    have h2 : Steps env (Reach env) (write (py!"AT+CMGS=" ++ decStr p.tpduLength)) :=
      reach_write (by simpa using calm_prefix py!"AT+CMGS" _)
    have h3 : Steps env (Reach env) (write (pduHex p.data) true [26]) := reach_write (calm_of_suffix ⟨_, rfl⟩)
    unfold sendPdus; reach <;> exact h1 _
theorem reach_send [PyUnicode] (d t : PyStr) (f : Bool) : Steps env (Reach env) (sendSms d t f) := by
  have h1 := reach_sendPdus (env := env)
  have h2 : Steps env (Reach env) (write (py!"AT+CMGS=\"" ++ d ++ py!"\"")) :=
    reach_write (by simpa using calm_prefix py!"AT+CMGS" _)
  have h3 : Steps env (Reach env) (write t true [26]) := reach_write (calm_of_suffix ⟨_, rfl⟩)
  unfold sendSms; reach <;> first | exact h1 _ _ | exact ⟨fun s => .one (.sent s d t _)⟩

/-! ### USSD and calls -/

theorem reach_handleUssd (ls : List PyStr) : Steps env (Reach env) (handleUssd ls) := by unfold handleUssd; reach

theorem reach_ringLoop (n : Option PyStr) : ∀ (l : List (Int × Nat)) (c : Option Nat), Steps env (Reach env) (ringLoop n l c)
  | [], c => by unfold ringLoop; reach
  | (_, i) :: l, c => by
    have h1 := reach_ringLoop n l
    unfold ringLoop; reach <;> exact h1 _

theorem reach_registerCall {c : CallObj} (h1 : c.active = true) (h2 : c.ringing = c.incoming) (h3 : c.answered = false)
    (h4 : c.incoming = false) : Steps env (Reach env) (registerCall c) :=
  ⟨fun s => .one (.newCall s c h1 h2 h3 (by simp [h4]))⟩
theorem reach_registerNext {c : CallObj} (h1 : c.active = true) (h2 : c.ringing = c.incoming) (h3 : c.answered = false) :
    Steps env (Reach env) (registerNext c) :=
  ⟨fun s => .one (.newCall s { c with id := (s.activeCalls.length : Int) + 1 } h1 h2 h3 (fun _ => rfl))⟩

theorem reach_ringType (l : PyStr) : Steps env (Reach env) (ringType l) := by unfold ringType; reach
theorem reach_callTypeOf (o : Option PyStr) : Steps env (Reach env) (callTypeOf o) := by cases o <;> (unfold callTypeOf; reach)
theorem reach_handleIncomingCall (ls : List PyStr) : Steps env (Reach env) (handleIncomingCall ls) := by
  have h1 := reach_ringLoop (env := env)
  have h2 := reach_callback (env := env)
  have h3 := reach_ringType (env := env)
  have h4 := reach_callTypeOf (env := env)
  unfold handleIncomingCall
  reach <;> first | exact h1 _ _ _ | exact h2 _ | exact h3 _ | exact h4 _ | exact reach_registerNext rfl rfl rfl

theorem reach_handleCallInitiated (a b : Int) : Steps env (Reach env) (handleCallInitiated a b) := by
  unfold handleCallInitiated; reach
theorem reach_handleCallAnswered : ∀ o : Option Int, Steps env (Reach env) (handleCallAnswered o)
  | some k => by
    refine ⟨fun s => ?_⟩
    show Reach env s ((match dictGet s.activeCalls k with | some i => setAnswered i true | none => M.raise .keyError : M Unit) env s).2
    cases h : dictGet s.activeCalls k with
    | some i => exact .one (.answered s i k h)
    | none => exact .refl s
  | none => by
    refine ⟨fun s => ?_⟩
    show Reach env s ((match firstOutgoing s true with | some i => setAnswered i true | none => pure () : M Unit) env s).2
    cases h : firstOutgoing s true with
    | some i => exact .one (.answeredFirst s i h)
    | none => exact .refl s
theorem reach_handleCallEnded (c : Option Int) (a b : Bool) : Steps env (Reach env) (handleCallEnded c a b) :=
  ⟨fun s => .one (.ended s c a b)⟩
theorem reach_runCallHandler (h : CallHandler) (g : List PyStr) : Steps env (Reach env) (runCallHandler h g) := by
  have h1 := reach_handleCallInitiated (env := env)
  have h2 := reach_handleCallAnswered (env := env)
  have h3 := reach_handleCallEnded (env := env)
  unfold runCallHandler
  reach <;> first | exact h1 _ _ | exact h2 _ | exact h3 _ _ _
theorem reach_dispatchLoop (all : List PyStr) : ∀ ls : List PyStr, Steps env (Reach env) (dispatchLoop all ls)
  | [] => by unfold dispatchLoop; reach
  | l :: ls => by
    have h0 := reach_dispatchLoop all ls
    have h1 := reach_handleIncomingCall (env := env) all
    have h2 := reach_handleSmsReceived (env := env) l
    have h3 := reach_handleUssd (env := env) all
    have h4 := reach_handleSmsStatusReport (env := env) l
    have h5 := reach_runCallHandler (env := env)
    unfold dispatchLoop; reach <;> exact h5 _ _
theorem reach_clccQuery : Steps env (Reach env) clccQuery := by unfold clccQuery; reach
theorem reach_pollStep (p : Poller) (seen : Option (Int × Int × Int × Int)) : Steps env (Reach env) (pollStep p seen) := by
  have h1 := reach_handleCallInitiated (env := env)
  have h2 := reach_handleCallAnswered (env := env)
  have h3 := reach_handleCallEnded (env := env)
  unfold pollStep
  reach <;> first | exact h1 _ _ | exact h2 _ | exact h3 _ _ _
theorem reach_pollRound (p : Poller) : Steps env (Reach env) (pollRound p) := by
  have h0 := reach_clccQuery (env := env)
  have h1 := reach_pollStep (env := env)
  unfold pollRound
  reach <;> exact h1 _ _
theorem reach_event (e : Event) : Steps env (Reach env) e.run := by
  cases e with
  | notify ls => exact ⟨fun s => (reach_dispatchLoop ls ls).run s⟩
  | poll k =>
    refine ⟨fun s => ?_⟩
    simp only [Event.run]
    split
    · exact .refl s
    · next p _ =>
      have := (reach_pollRound (env := env) p).run s
      split
      · next he => rw [he] at this; exact this.trans (.one (.pollers _ _))
      · next he => rw [he] at this; exact this.trans (.one (.pollers _ _))
theorem reach_awaitEvent (f : St → Bool) : ∀ es : List Event, Steps env (Reach env) (awaitEvent f es)
  | [] => by unfold awaitEvent; reach
  | e :: es => by
    have h1 := reach_awaitEvent f es
    have h2 := reach_event (env := env) e
    unfold awaitEvent; reach
theorem reach_sendWait [PyUnicode] (d t : PyStr) (f : Bool) (e du : List Event) : Steps env (Reach env) (sendSmsWait d t f e du) := by
  have h1 := reach_send (env := env) d t f
  have h2 := reach_awaitEvent (env := env)
  unfold sendSmsWait; reach <;> exact h2 _ _
theorem reach_sendUssd (x : PyStr) (du : List Event) : Steps env (Reach env) (sendUssd x du) := by
  have h1 := reach_awaitEvent (env := env)
  have h2 : Steps env (Reach env) (write (cusdCmd x)) := reach_write (by simpa [cusdCmd] using calm_prefix py!"AT+CUSD" _)
  unfold sendUssd; reach <;> exact h1 _ _
theorem reach_reply (u : Ussd) (x : PyStr) (du : List Event) : Steps env (Reach env) (u.reply x du) := by
  have h1 := reach_sendUssd (env := env) x du
  unfold Ussd.reply; reach
theorem reach_cancel (u : Ussd) : Steps env (Reach env) u.cancel := by unfold Ussd.cancel; reach
theorem reach_writeAtd (n : PyStr) : Steps env (Reach env) (writeAtd n) := by
  have hp : CalmCmd (atdCmd n ++ [13]) := by simpa [atdCmd] using calm_prefix py!"ATD" _
  have h1 : Steps env (Reach env) (write (atdCmd n)) := reach_write hp
  have h2 : Steps env (Reach env) (writeNoWait (atdCmd n)) := ⟨fun s => .one (.cmd s _ 1 s.writeWait hp)⟩
  unfold writeAtd; reach
theorem reach_dial (n : PyStr) (t : Nat) (cb : Bool) (du : List Event) : Steps env (Reach env) (dial n t cb du) := by
  have h1 := reach_awaitEvent (env := env)
  have h2 := reach_writeAtd (env := env) n
  unfold dial
  reach <;> first | exact h1 _ _ | exact reach_registerNext rfl rfl rfl | exact reach_registerCall rfl rfl rfl rfl | exact Steps.modify fun s => .one (.pollers s _)
theorem reach_hangup (i : Nat) : Steps env (Reach env) (hangup i) := ⟨fun s => .one (.hangup s i)⟩
theorem reach_answer (i : Nat) : Steps env (Reach env) (answer i) := ⟨fun s => .one (.answer s i)⟩
theorem dtmfCmd_prefix {base tones cmd : PyStr} (h : dtmfCmd base tones = .ok cmd) : ∃ r, cmd = py!"AT" ++ base ++ r := by
  unfold dtmfCmd at h
  split at h
  · cases h; exact ⟨[], by simp⟩
  · cases h; exact ⟨_, rfl⟩
  · split at h
    · cases h
    · cases h
      exact ⟨_, by simp only [List.append_assoc]; rfl⟩
theorem calm_dtmf {s : St} {c : CallObj} {tones cmd : PyStr} (h : dtmfCmd (dtmfBase s c) tones = .ok cmd) : CalmCmd (cmd ++ [13]) := by
  obtain ⟨r, rfl⟩ := dtmfCmd_prefix h
  unfold dtmfBase
  split
  · simpa using calm_prefix py!"AT^" _
  · simpa using calm_prefix py!"AT+VTS" _
theorem reach_dtmf (i : Nat) (t : PyStr) : Steps env (Reach env) (sendDtmfTone i t) := by
  unfold sendDtmfTone
  refine Steps.bind (reach_pre _) (Steps.get (reach_pre _)) fun s => ?_
  split
  · reach
  · split
    · refine Steps.ofExcept_bind (reach_pre _) fun cmd hcmd => ?_
      have := reach_write (env := env) (pe := true) (calm_dtmf hcmd)
      reach
    · reach

/-- Every operation is a sequence of atomic changes. -/
theorem Op.run_reach [PyUnicode] (op : Op) : Steps env (Reach env) op.run := by
  have hd : ∀ {α : Type} {m : M α}, Steps env (Reach env) m → Steps env (Reach env) (discard m) := by
    intro α m h
    unfold discard; reach
  cases op with
  | event e => exact reach_event e
  | setTextMode v => exact ⟨fun s => .one (.textMode s v)⟩
  | setSmsc n => exact reach_setSmsc n
  | getSmsc => exact hd reach_getSmsc
  | signalStrength => exact hd reach_signalStrength
  | manufacturer => exact hd reach_manufacturer
  | model => exact hd reach_model
  | revision => exact hd reach_revision
  | imei => exact hd reach_imei
  | imsi => exact hd reach_imsi
  | networkName => exact hd reach_networkName
  | supportedCommands => exact hd reach_supportedCommands
  | waitForNetworkCoverage r => exact hd (reach_coverage r true)
  | read i m => exact hd (reach_read i m)
  | delete i m => exact reach_delete i m
  | deleteMultiple f m => exact reach_deleteMultiple f m
  | list st m d => exact hd (reach_list st m d)
  | process u => exact reach_process u
  | send d t f => exact hd (reach_send d t f)
  | sendWait d t f e du => exact hd (reach_sendWait d t f e du)
  | ussd s du => exact hd (reach_sendUssd s du)
  | ussdReply u s du => exact hd (reach_reply u s du)
  | ussdCancel u => exact reach_cancel u
  | dial n t cb du => exact hd (reach_dial n t cb du)
  | answer c => exact reach_answer c
  | hangup c => exact reach_hangup c
  | dtmf c t => exact reach_dtmf c t

theorem runOps_reach [PyUnicode] (env : Env) : ∀ (ops : List Op) (s : St), Reach env s (runOps env ops s)
  | [], s => .refl s
  | op :: ops, s => (op.run_reach.run s).trans (runOps_reach env ops _)

/-- An invariant of the atomic changes holds after every history. -/
theorem runOps_inv [PyUnicode] {env : Env} {J : St → Prop} (h : ∀ a b, Atom env a b → J a → J b) (ops : List Op) {s : St} (hs : J s) :
    J (runOps env ops s) := by
  have hr := runOps_reach env ops s
  generalize runOps env ops s = s' at hr
  induction hr with
  | refl => exact hs
  | step ha _ ih => exact ih (h _ _ ha hs)

end Gsm
