import Verif.Lemmas.TextStoreMethods
import Verif.Lemmas.StoreOps
/-! # A modem that keeps messages, in both modes: every operation -/
namespace Gsm.InModes
open M Spec List

variable {env : Env} {shows : Display} {mode : List PyStr → Bool} {shelf : List PyStr → Shelf} {came : List PyStr → List HeldSms}

/-- Choosing a mode. -/
theorem mode_write (H : KeepingIn shows env.reply mode shelf came) (hd : 0 < env.depth) (v : Bool) (s : St) :
    (∃ ls, write (py!"AT+CMGF=" ++ (if v then py!"1" else py!"0")) true [13] env s = (.ok ls, { s with log := modeCommand v :: s.log }) ∧ mode (modeCommand v :: s.log) = v) ∨
    ∃ e, write (py!"AT+CMGF=" ++ (if v then py!"1" else py!"0")) true [13] env s = (.error e, { s with log := modeCommand v :: s.log }) ∧ mode (modeCommand v :: s.log) = mode s.log := by
  have hs := H.serves (modeCommand v) s.log
  have hc : (py!"AT+CMGF=" ++ (if v then py!"1" else py!"0")) ++ [13] = modeCommand v := rfl
  generalize hm : mode (modeCommand v :: s.log) = t' at hs ⊢
  generalize hr : env.reply (modeCommand v :: s.log) = r at hs
  generalize shelf (modeCommand v :: s.log) = m' at hs
  cases hs with
  | order h => exact absurd h mode_not
  | reset h => exact absurd h mode_not
  | mode h h1 h2 =>
    cases mode_inj h
    subst h1
    exact .inl ⟨_, obeyed_write hd (by rw [hc]; exact hr) h2, rfl⟩
  | refused h h1 =>
    subst h1
    refine .inr ⟨_, C32_mapping hd (by rw [hc]; exact hr) (.plain (line := py!"ERROR") rfl ⟨[], [], rfl⟩ ?_), rfl⟩
    rintro ty ds ⟨_, _, _, _, _, h⟩
    simp at h
  | other _ h => exact absurd rfl (h v)

theorem stay_mode (H : KeepingIn shows env.reply mode shelf came) (v : Bool) (log : List PyStr) : Balance shelf came log (modeCommand v :: log) [] ∧ (shelf (modeCommand v :: log)).memory = (shelf log).memory :=
  ⟨balance_other H (fun _ => mode_not) (fun _ => mode_not), keep_memory H (fun _ => mode_not) mode_not⟩

theorem safe_mode (H : KeepingIn shows env.reply mode shelf came) (hd : 0 < env.depth) (v : Bool) : Steps env (Guarded shows mode shelf came) (setSmsTextMode v) := by
  refine ⟨fun s hk hs => ?_⟩
  by_cases hv : v = s.smsTextMode
  · have : setSmsTextMode v env s = (.ok (), s) := by
      simp [setSmsTextMode, run_bind, run_get, hv]; rfl
    rw [this]
    exact safe_pre.refl s hk hs
  · obtain ⟨hb, hmem⟩ := stay_mode H v s.log
    rcases mode_write H hd v s with ⟨ls, h1, h2⟩ | ⟨e, h1, h2⟩
    · have : setSmsTextMode v env s = (.ok (), { s with log := modeCommand v :: s.log, smsTextMode := v }) := by
        simp only [setSmsTextMode, run_bind, run_get, ne_eq, hv, not_false_eq_true, if_true, hk.1, h1]
        rfl
      rw [this]
      exact ⟨⟨[modeCommand v], rfl⟩, ⟨hk.1, h2.symm, fun m hm hq => hmem.trans (hk.2.2 m hm hq)⟩, keep_sound H _ hs, [], rfl, (fun p hp => absurd hp (by simp)), hb⟩
    · have : setSmsTextMode v env s = (.error e, { s with log := modeCommand v :: s.log }) := by
        simp only [setSmsTextMode, run_bind, run_get, ne_eq, hv, not_false_eq_true, if_true, hk.1, h1]
      rw [this]
      exact ⟨⟨[modeCommand v], rfl⟩, ⟨hk.1, hk.2.1.trans h2.symm, fun m hm hq => hmem.trans (hk.2.2 m hm hq)⟩, keep_sound H _ hs, [], rfl, (fun p hp => absurd hp (by simp)), hb⟩

attribute [local irreducible] Guarded

/-- Decomposes a program; commands without arguments and changes of the state that have nothing to do with it are dealt with. -/
macro "safelyIn" h:term : tactic => `(tactic| (steps safe_pre) <;> try first
  | exact safe_write $h (nb_const _)
  | exact safe_same rfl rfl rfl rfl rfl)

theorem safe_signalStrength (H : KeepingIn shows env.reply mode shelf came) : Steps env (Guarded shows mode shelf came) signalStrength := by unfold signalStrength; safelyIn H
theorem safe_manufacturer (H : KeepingIn shows env.reply mode shelf came) : Steps env (Guarded shows mode shelf came) manufacturer := by unfold manufacturer; safelyIn H
theorem safe_model (H : KeepingIn shows env.reply mode shelf came) : Steps env (Guarded shows mode shelf came) model := by unfold model; safelyIn H
theorem safe_revision (H : KeepingIn shows env.reply mode shelf came) : Steps env (Guarded shows mode shelf came) revision := by unfold revision; safelyIn H
theorem safe_imei (H : KeepingIn shows env.reply mode shelf came) : Steps env (Guarded shows mode shelf came) imei := by unfold imei; safelyIn H
theorem safe_imsi (H : KeepingIn shows env.reply mode shelf came) : Steps env (Guarded shows mode shelf came) imsi := by unfold imsi; safelyIn H
theorem safe_networkName (H : KeepingIn shows env.reply mode shelf came) : Steps env (Guarded shows mode shelf came) networkName := by unfold networkName; safelyIn H
theorem safe_supportedCommands (H : KeepingIn shows env.reply mode shelf came) : Steps env (Guarded shows mode shelf came) supportedCommands := by unfold supportedCommands; safelyIn H
theorem safe_getSmsc (H : KeepingIn shows env.reply mode shelf came) : Steps env (Guarded shows mode shelf came) getSmsc := by unfold getSmsc; safelyIn H
theorem safe_setSmsc (H : KeepingIn shows env.reply mode shelf came) (n : Option PyStr) : Steps env (Guarded shows mode shelf came) (setSmsc n) := by
  have h : ∀ n, Steps env (Guarded shows mode shelf came) (write (cscaCmd n)) := fun n => safe_write H (by simpa [cscaCmd] using nb_prefix py!"AT+CSCA" _)
  unfold setSmsc; safelyIn H
  exact h _
theorem safe_coverage (H : KeepingIn shows env.reply mode shelf came) : ∀ (rounds : Nat) (b : Bool), Steps env (Guarded shows mode shelf came) (coverageLoop rounds b)
  | 0, _ => by unfold coverageLoop; safelyIn H
  | rounds + 1, true => by
    have h1 := safe_coverage H rounds true
    have h2 := safe_coverage H rounds false
    unfold coverageLoop; safelyIn H
  | rounds + 1, false => by
    have h2 := safe_coverage H rounds false
    have h3 := safe_signalStrength H
    unfold coverageLoop; safelyIn H

theorem safe_read (H : KeepingIn shows env.reply mode shelf came) (hd : 0 < env.depth) (i : PyStr) {m : Option PyStr} (hm : Nameable m) : Steps env (Guarded shows mode shelf came) (readStoredSms i m) := by
  have h1 := safe_memory H hd hm
  have h2 : Steps env (Guarded shows mode shelf came) (write (cmgrCmd i)) := safe_harmless H (harmless_start (p := py!"AT+CMGR=") ⟨i ++ [13], by simp [cmgrCmd]⟩ (.inl rfl))
  unfold readStoredSms; safelyIn H
theorem harmless_list {t : Bool} {st : Int} {c : PyStr} (h : listCommand t st = .ok c) : Harmless (c ++ [13]) := by
  unfold listCommand at h
  split at h
  · split at h
    · cases h
    · next n _ => cases h; exact harmless_start (p := py!"AT+CMGL=") ⟨py!"\"" ++ n ++ py!"\"\r", by simp⟩ (.inr rfl)
  · cases h; exact harmless_start (p := py!"AT+CMGL=") ⟨intStr st ++ [13], by simp⟩ (.inr rfl)
theorem safe_list (H : KeepingIn shows env.reply mode shelf came) (hd : 0 < env.depth) (st : Int) {m : Option PyStr} (hm : Nameable m) : Steps env (Guarded shows mode shelf came) (listStoredSms st m false) := by
  have h1 := safe_memory H hd hm
  unfold listStoredSms deleteListed
  refine Steps.bind safe_pre h1 fun _ => Steps.bind safe_pre (Steps.get safe_pre) fun s => Steps.ofExcept_bind safe_pre fun c hc => ?_
  have h2 : Steps env (Guarded shows mode shelf came) (write c) := safe_harmless H (harmless_list hc)
  safelyIn H
  all_goals contradiction

theorem safe_sendPdus (H : KeepingIn shows env.reply mode shelf came) : ∀ (ps : List Pdu) (r : Option PyStr), Steps env (Guarded shows mode shelf came) (sendPdus ps r)
  | [], r => by unfold sendPdus; safelyIn H
  | p :: ps, r => by
    have h1 := safe_sendPdus H ps
    have h2 : Steps env (Guarded shows mode shelf came) (write (py!"AT+CMGS=" ++ decStr p.tpduLength)) := safe_write H (by simpa using nb_prefix py!"AT+CMGS" _)
    have h3 : Steps env (Guarded shows mode shelf came) (write (pduHex p.data) true [26]) := safe_write H (nb_suffix ⟨_, rfl⟩)
    unfold sendPdus; safelyIn H
    exact h1 _
theorem safe_send [PyUnicode] (H : KeepingIn shows env.reply mode shelf came) (d t : PyStr) (f : Bool) : Steps env (Guarded shows mode shelf came) (sendSms d t f) := by
  have h1 := safe_sendPdus H
  have h2 : Steps env (Guarded shows mode shelf came) (write (py!"AT+CMGS=\"" ++ d ++ py!"\"")) := safe_write H (by simpa using nb_prefix py!"AT+CMGS" _)
  have h3 : Steps env (Guarded shows mode shelf came) (write t true [26]) := safe_write H (nb_suffix ⟨_, rfl⟩)
  have h4 : ∀ r, Steps env (Guarded shows mode shelf came) (recordSent d t r) := fun r => ⟨fun s => safe_same rfl rfl rfl rfl rfl⟩
  unfold sendSms; safelyIn H
  all_goals first | exact h1 _ _ | exact h4 _

/-! ### USSD and calls -/

theorem safe_callback {c : Callback} (h : ∀ m, c ≠ .smsReceived m) : Steps env (Guarded shows mode shelf came) (callback c) :=
  ⟨fun s => safe_same rfl rfl rfl (handed_other h) rfl⟩
theorem safe_ussdLines (H : KeepingIn shows env.reply mode shelf came) (ls : List PyStr) : Steps env (Guarded shows mode shelf came) (handleUssd ls) := by unfold handleUssd; safelyIn H
theorem safe_setAnswered (H : KeepingIn shows env.reply mode shelf came) (i : Nat) (v : Bool) : Steps env (Guarded shows mode shelf came) (setAnswered i v) := by
  have h := safe_callback (env := env) (shows := shows) (mode := mode) (shelf := shelf) (came := came) (c := .callStatus i) (fun m => by simp)
  unfold setAnswered; safelyIn H
theorem safe_ringLoop (H : KeepingIn shows env.reply mode shelf came) (n : Option PyStr) : ∀ (l : List (Int × Nat)) (c : Option Nat), Steps env (Guarded shows mode shelf came) (ringLoop n l c)
  | [], c => by unfold ringLoop; safelyIn H
  | (_, i) :: l, c => by
    have h1 := safe_ringLoop H n l
    unfold ringLoop; safelyIn H
    all_goals exact h1 _
theorem safe_registerCall (c : CallObj) : Steps env (Guarded shows mode shelf came) (registerCall c) := ⟨fun s => safe_same rfl rfl rfl rfl rfl⟩
theorem safe_registerNext (c : CallObj) : Steps env (Guarded shows mode shelf came) (registerNext c) := ⟨fun s => safe_same rfl rfl rfl rfl rfl⟩
theorem safe_ringType (H : KeepingIn shows env.reply mode shelf came) (l : PyStr) : Steps env (Guarded shows mode shelf came) (ringType l) := by unfold ringType; safelyIn H
theorem safe_callTypeOf (H : KeepingIn shows env.reply mode shelf came) (o : Option PyStr) : Steps env (Guarded shows mode shelf came) (callTypeOf o) := by cases o <;> (unfold callTypeOf; safelyIn H)
theorem safe_incoming (H : KeepingIn shows env.reply mode shelf came) (ls : List PyStr) : Steps env (Guarded shows mode shelf came) (handleIncomingCall ls) := by
  have h1 := safe_ringLoop H
  have h2 : ∀ i, Steps env (Guarded shows mode shelf came) (callback (.incomingCall i)) := fun i => safe_callback (fun m => by simp)
  have h3 := safe_ringType H
  have h4 := safe_callTypeOf H
  unfold handleIncomingCall; safelyIn H
  all_goals first | exact h1 _ _ _ | exact h2 _ | exact h3 _ | exact h4 _ | exact safe_registerNext _
theorem safe_initiated (H : KeepingIn shows env.reply mode shelf came) (a b : Int) : Steps env (Guarded shows mode shelf came) (handleCallInitiated a b) := by unfold handleCallInitiated; safelyIn H
theorem safe_answered (H : KeepingIn shows env.reply mode shelf came) (o : Option Int) : Steps env (Guarded shows mode shelf came) (handleCallAnswered o) := by
  have h := safe_setAnswered H
  unfold handleCallAnswered; safelyIn H
  all_goals exact h _ _
theorem safe_ended (H : KeepingIn shows env.reply mode shelf came) (c : Option Int) (a b : Bool) : Steps env (Guarded shows mode shelf came) (handleCallEnded c a b) := by
  have h := safe_setAnswered H
  unfold handleCallEnded; safelyIn H
  all_goals exact h _ _
theorem safe_runCallHandler (H : KeepingIn shows env.reply mode shelf came) (h : CallHandler) (g : List PyStr) : Steps env (Guarded shows mode shelf came) (runCallHandler h g) := by
  have h1 := safe_initiated H
  have h2 := safe_answered H
  have h3 := safe_ended H
  unfold runCallHandler; safelyIn H
  all_goals first | exact h1 _ _ | exact h2 _ | exact h3 _ _ _
theorem safe_report (line : PyStr) (h : ∀ mem idx, ¬ StoredAt py!"+CDSI:" line mem idx) : Steps env (Guarded shows mode shelf came) (handleSmsStatusReport line) := by
  refine ⟨fun s => ?_⟩
  have hg : rxGroups cdsiRegex line = none := by
    cases hg : rxGroups cdsiRegex line with
    | none => rfl
    | some g =>
      rw [cdsi_rx] at hg
      obtain ⟨mem, idx, -, h1⟩ := stored_iff.1 hg
      exact absurd h1 (h mem idx)
  have : handleSmsStatusReport line env s = (.ok (), s) := by
    unfold handleSmsStatusReport
    rw [hg]
    rfl
  rw [this]
  exact safe_pre.refl s
theorem safe_dispatch (H : KeepingIn shows env.reply mode shelf came) (hd : 0 < env.depth) (all : List PyStr) : ∀ ls : List PyStr,
    (∀ l ∈ ls, ∀ mem idx, ¬ StoredAt py!"+CDSI:" l mem idx) → Steps env (Guarded shows mode shelf came) (dispatchLoop all ls)
  | [], _ => by unfold dispatchLoop; safelyIn H
  | l :: ls, hl => by
    have h0 := safe_dispatch H hd all ls (fun x hx => hl x (by simp [hx]))
    have h1 := safe_incoming H all
    have h2 := safe_received H hd l
    have h3 := safe_ussdLines H all
    have h4 := safe_report (env := env) (shows := shows) (mode := mode) (shelf := shelf) (came := came) l (hl l (by simp))
    have h5 := safe_runCallHandler H
    unfold dispatchLoop; safelyIn H
    all_goals exact h5 _ _
theorem safe_clccQuery (H : KeepingIn shows env.reply mode shelf came) : Steps env (Guarded shows mode shelf came) clccQuery := by unfold clccQuery; safelyIn H
theorem safe_pollStep (H : KeepingIn shows env.reply mode shelf came) (p : Poller) (seen : Option (Int × Int × Int × Int)) : Steps env (Guarded shows mode shelf came) (pollStep p seen) := by
  have h1 := safe_initiated H
  have h2 := safe_answered H
  have h3 := safe_ended H
  unfold pollStep; safelyIn H
  all_goals first | exact h1 _ _ | exact h2 _ | exact h3 _ _ _
theorem safe_pollRound (H : KeepingIn shows env.reply mode shelf came) (p : Poller) : Steps env (Guarded shows mode shelf came) (pollRound p) := by
  have h0 := safe_clccQuery H
  have h1 := safe_pollStep H
  unfold pollRound; safelyIn H
  all_goals exact h1 _ _
theorem safe_event (H : KeepingIn shows env.reply mode shelf came) (hd : 0 < env.depth) {e : Event} (he : NoReports e) : Steps env (Guarded shows mode shelf came) e.run := by
  cases e with
  | notify ls => exact ⟨fun s => (safe_dispatch H hd ls ls he).run s⟩
  | poll k =>
    refine ⟨fun s => ?_⟩
    simp only [Event.run]
    split
    · exact safe_pre.refl s
    · next p _ =>
      have := (safe_pollRound H p).run s
      split
      · next he => rw [he] at this; exact safe_pre.trans this (safe_same rfl rfl rfl rfl rfl)
      · next he => rw [he] at this; exact safe_pre.trans this (safe_same rfl rfl rfl rfl rfl)
theorem safe_await (H : KeepingIn shows env.reply mode shelf came) (hd : 0 < env.depth) (f : St → Bool) : ∀ es : List Event, (∀ e ∈ es, NoReports e) →
    Steps env (Guarded shows mode shelf came) (awaitEvent f es)
  | [], _ => by unfold awaitEvent; safelyIn H
  | e :: es, he => by
    have h1 := safe_await H hd f es (fun x hx => he x (by simp [hx]))
    have h2 := safe_event H hd (he e (by simp))
    unfold awaitEvent; safelyIn H
theorem safe_sendWait [PyUnicode] (H : KeepingIn shows env.reply mode shelf came) (hd : 0 < env.depth) (d t : PyStr) (f : Bool) {e du : List Event} (he : ∀ x ∈ e, NoReports x)
    (hdu : ∀ x ∈ du, NoReports x) : Steps env (Guarded shows mode shelf came) (sendSmsWait d t f e du) := by
  have h1 := safe_send H d t f
  have h2 := fun f => safe_await H hd f e he
  have h3 := fun f => safe_await H hd f du hdu
  unfold sendSmsWait; safelyIn H
  all_goals first | exact h2 _ | exact h3 _
theorem safe_ussd (H : KeepingIn shows env.reply mode shelf came) (hd : 0 < env.depth) (x : PyStr) {du : List Event} (hdu : ∀ e ∈ du, NoReports e) :
    Steps env (Guarded shows mode shelf came) (sendUssd x du) := by
  have h1 := fun f => safe_await H hd f du hdu
  have h2 : Steps env (Guarded shows mode shelf came) (write (cusdCmd x)) := safe_write H (by simpa [cusdCmd] using nb_prefix py!"AT+CUSD" _)
  unfold sendUssd; safelyIn H
  all_goals exact h1 _
theorem safe_cancel (H : KeepingIn shows env.reply mode shelf came) (u : Ussd) : Steps env (Guarded shows mode shelf came) u.cancel := by unfold Ussd.cancel; safelyIn H
theorem safe_writeAtd (H : KeepingIn shows env.reply mode shelf came) (n : PyStr) : Steps env (Guarded shows mode shelf came) (writeAtd n) := by
  have hp : Unbidden (atdCmd n ++ [13]) := by simpa [atdCmd] using nb_prefix py!"ATD" _
  have h1 : Steps env (Guarded shows mode shelf came) (write (atdCmd n)) := safe_write H hp
  have h2 : Steps env (Guarded shows mode shelf came) (writeNoWait (atdCmd n)) := ⟨fun s => safe_one H hp.harmless s s.writeWait⟩
  unfold writeAtd; safelyIn H
theorem safe_dial (H : KeepingIn shows env.reply mode shelf came) (hd : 0 < env.depth) (n : PyStr) (t : Nat) (cb : Bool) {du : List Event} (hdu : ∀ e ∈ du, NoReports e) :
    Steps env (Guarded shows mode shelf came) (dial n t cb du) := by
  have h1 := fun f => safe_await H hd f du hdu
  have h2 := safe_writeAtd H n
  unfold dial; safelyIn H
  all_goals first | exact h1 _ | exact safe_registerNext _ | exact safe_registerCall _
theorem safe_hangup (H : KeepingIn shows env.reply mode shelf came) (i : Nat) : Steps env (Guarded shows mode shelf came) (hangup i) := by
  have h := safe_setAnswered H
  unfold hangup stopRinging hangupActive; safelyIn H
  all_goals exact h _ _
theorem safe_answer (H : KeepingIn shows env.reply mode shelf came) (i : Nat) : Steps env (Guarded shows mode shelf came) (answer i) := by
  have h := safe_setAnswered H
  unfold answer; safelyIn H
  all_goals exact h _ _
theorem nb_dtmf {s : St} {c : CallObj} {tones cmd : PyStr} (h : dtmfCmd (dtmfBase s c) tones = .ok cmd) : Unbidden (cmd ++ [13]) := by
  obtain ⟨r, rfl⟩ := dtmfCmd_prefix h
  unfold dtmfBase
  split
  · simpa using nb_prefix py!"AT^" _
  · simpa using nb_prefix py!"AT+VTS" _
theorem safe_dtmf (H : KeepingIn shows env.reply mode shelf came) (i : Nat) (t : PyStr) : Steps env (Guarded shows mode shelf came) (sendDtmfTone i t) := by
  unfold sendDtmfTone
  refine Steps.bind safe_pre (Steps.get safe_pre) fun s => ?_
  split
  · safelyIn H
  · split
    · refine Steps.ofExcept_bind safe_pre fun cmd hcmd => ?_
      have : Steps env (Guarded shows mode shelf came) (write cmd) := safe_write H (nb_dtmf hcmd)
      safelyIn H
    · safelyIn H
theorem safe_discard {α : Type} {m : M α} (h : Steps env (Guarded shows mode shelf came) m) : Steps env (Guarded shows mode shelf came) (discard m) := by
  unfold discard
  exact Steps.bind safe_pre h fun _ => Steps.pure safe_pre _

/-- Every careful operation. -/
theorem safe_op [PyUnicode] (H : KeepingIn shows env.reply mode shelf came) (hd : 0 < env.depth) {op : Op} (h : CarefulIn op) : Steps env (Guarded shows mode shelf came) op.run := by
  cases op with
  | event e => exact safe_event H hd h
  | setTextMode v => exact safe_mode H hd v
  | setSmsc n => exact safe_setSmsc H n
  | getSmsc => exact safe_discard (safe_getSmsc H)
  | signalStrength => exact safe_discard (safe_signalStrength H)
  | manufacturer => exact safe_discard (safe_manufacturer H)
  | model => exact safe_discard (safe_model H)
  | revision => exact safe_discard (safe_revision H)
  | imei => exact safe_discard (safe_imei H)
  | imsi => exact safe_discard (safe_imsi H)
  | networkName => exact safe_discard (safe_networkName H)
  | supportedCommands => exact safe_discard (safe_supportedCommands H)
  | waitForNetworkCoverage r => exact safe_discard (safe_coverage H r true)
  | read i m => exact safe_discard (safe_read H hd i h)
  | delete => exact h.elim
  | deleteMultiple => exact h.elim
  | list st m d => cases h.2; exact safe_discard (safe_list H hd st h.1)
  | process u => exact safe_process H hd u
  | send d t f => exact safe_discard (safe_send H d t f)
  | sendWait d t f e du => exact safe_discard (safe_sendWait H hd d t f h.1 h.2)
  | ussd x du => exact safe_discard (safe_ussd H hd x h)
  | ussdReply u x du =>
    refine safe_discard ?_
    have := safe_ussd H hd x (show ∀ e ∈ du, NoReports e from h)
    unfold Ussd.reply; safelyIn H
  | ussdCancel u => exact safe_cancel H u
  | dial n t cb du => exact safe_discard (safe_dial H hd n t cb h)
  | answer c => exact safe_answer H c
  | hangup c => exact safe_hangup H c
  | dtmf c t => exact safe_dtmf H c t

theorem safe_ops [PyUnicode] (H : KeepingIn shows env.reply mode shelf came) (hd : 0 < env.depth) : ∀ (ops : List Op) (s : St), (∀ op ∈ ops, CarefulIn op) →
    Guarded shows mode shelf came s (runOps env ops s)
  | [], s, _ => safe_pre.refl s
  | op :: ops, s, h => safe_pre.trans ((safe_op H hd (h op (by simp))).run s) (safe_ops H hd ops _ fun o ho => h o (by simp [ho]))

end Gsm.InModes
