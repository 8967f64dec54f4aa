import Verif.Lemmas.StoreMethods
/-! # A modem that keeps messages: every operation -/
namespace Gsm
open M Spec List

variable {env : Env} {shelf : List PyStr → Shelf} {came : List PyStr → List HeldSms}

theorem safe_pduMode : Steps env (Guarded shelf came) (setSmsTextMode false) := by
  refine ⟨fun s hk hs => ?_⟩
  have : setSmsTextMode false env s = (.ok (), s) := by
    simp [setSmsTextMode, run_bind, run_get, hk.1]; rfl
  rw [this]
  exact safe_pre.refl s hk hs

attribute [local irreducible] Guarded

/-- Decomposes a program; commands without arguments and changes of the state that have nothing to do with it are dealt with. -/
macro "safely" h:term : tactic => `(tactic| (steps safe_pre) <;> try first
  | exact safe_write $h (nb_const _)
  | exact safe_same rfl rfl rfl rfl)

theorem safe_signalStrength (H : Keeping env.reply shelf came) : Steps env (Guarded shelf came) signalStrength := by unfold signalStrength; safely H
theorem safe_manufacturer (H : Keeping env.reply shelf came) : Steps env (Guarded shelf came) manufacturer := by unfold manufacturer; safely H
theorem safe_model (H : Keeping env.reply shelf came) : Steps env (Guarded shelf came) model := by unfold model; safely H
theorem safe_revision (H : Keeping env.reply shelf came) : Steps env (Guarded shelf came) revision := by unfold revision; safely H
theorem safe_imei (H : Keeping env.reply shelf came) : Steps env (Guarded shelf came) imei := by unfold imei; safely H
theorem safe_imsi (H : Keeping env.reply shelf came) : Steps env (Guarded shelf came) imsi := by unfold imsi; safely H
theorem safe_networkName (H : Keeping env.reply shelf came) : Steps env (Guarded shelf came) networkName := by unfold networkName; safely H
theorem safe_supportedCommands (H : Keeping env.reply shelf came) : Steps env (Guarded shelf came) supportedCommands := by unfold supportedCommands; safely H
theorem safe_getSmsc (H : Keeping env.reply shelf came) : Steps env (Guarded shelf came) getSmsc := by unfold getSmsc; safely H
theorem safe_setSmsc (H : Keeping env.reply shelf came) (n : Option PyStr) : Steps env (Guarded shelf came) (setSmsc n) := by
  have h : ∀ n, Steps env (Guarded shelf came) (write (cscaCmd n)) := fun n => safe_write H (by simpa [cscaCmd] using nb_prefix py!"AT+CSCA" _)
  unfold setSmsc; safely H
  exact h _
theorem safe_coverage (H : Keeping env.reply shelf came) : ∀ (rounds : Nat) (b : Bool), Steps env (Guarded shelf came) (coverageLoop rounds b)
  | 0, _ => by unfold coverageLoop; safely H
  | rounds + 1, true => by
    have h1 := safe_coverage H rounds true
    have h2 := safe_coverage H rounds false
    unfold coverageLoop; safely H
  | rounds + 1, false => by
    have h2 := safe_coverage H rounds false
    have h3 := safe_signalStrength H
    unfold coverageLoop; safely H

theorem safe_read (H : Keeping env.reply shelf came) (hd : 0 < env.depth) (i : PyStr) {m : Option PyStr} (hm : Nameable m) : Steps env (Guarded shelf came) (readStoredSms i m) := by
  have h1 := safe_memory H hd hm
  have h2 : Steps env (Guarded shelf came) (write (cmgrCmd i)) := safe_harmless H (harmless_start (p := py!"AT+CMGR=") ⟨i ++ [13], by simp [cmgrCmd]⟩ (.inl rfl))
  unfold readStoredSms; safely H
theorem harmless_list {t : Bool} {st : Int} {c : PyStr} (h : listCommand t st = .ok c) : Harmless (c ++ [13]) := by
  unfold listCommand at h
  split at h
  · split at h
    · cases h
    · next n _ => cases h; exact harmless_start (p := py!"AT+CMGL=") ⟨py!"\"" ++ n ++ py!"\"\r", by simp⟩ (.inr rfl)
  · cases h; exact harmless_start (p := py!"AT+CMGL=") ⟨intStr st ++ [13], by simp⟩ (.inr rfl)
theorem safe_list (H : Keeping env.reply shelf came) (hd : 0 < env.depth) (st : Int) {m : Option PyStr} (hm : Nameable m) : Steps env (Guarded shelf came) (listStoredSms st m false) := by
  have h1 := safe_memory H hd hm
  unfold listStoredSms deleteListed
  refine Steps.bind safe_pre h1 fun _ => Steps.bind safe_pre (Steps.get safe_pre) fun s => Steps.ofExcept_bind safe_pre fun c hc => ?_
  have h2 : Steps env (Guarded shelf came) (write c) := safe_harmless H (harmless_list hc)
  safely H
  all_goals contradiction

theorem safe_sendPdus (H : Keeping env.reply shelf came) : ∀ (ps : List Pdu) (r : Option PyStr), Steps env (Guarded shelf came) (sendPdus ps r)
  | [], r => by unfold sendPdus; safely H
  | p :: ps, r => by
    have h1 := safe_sendPdus H ps
    have h2 : Steps env (Guarded shelf came) (write (py!"AT+CMGS=" ++ decStr p.tpduLength)) := safe_write H (by simpa using nb_prefix py!"AT+CMGS" _)
    have h3 : Steps env (Guarded shelf came) (write (pduHex p.data) true [26]) := safe_write H (nb_suffix ⟨_, rfl⟩)
    unfold sendPdus; safely H
    exact h1 _
theorem safe_send [PyUnicode] (H : Keeping env.reply shelf came) (d t : PyStr) (f : Bool) : Steps env (Guarded shelf came) (sendSms d t f) := by
  have h1 := safe_sendPdus H
  have h2 : Steps env (Guarded shelf came) (write (py!"AT+CMGS=\"" ++ d ++ py!"\"")) := safe_write H (by simpa using nb_prefix py!"AT+CMGS" _)
  have h3 : Steps env (Guarded shelf came) (write t true [26]) := safe_write H (nb_suffix ⟨_, rfl⟩)
  have h4 : ∀ r, Steps env (Guarded shelf came) (recordSent d t r) := fun r => ⟨fun s => safe_same rfl rfl rfl rfl⟩
  unfold sendSms; safely H
  all_goals first | exact h1 _ _ | exact h4 _

/-! ### USSD and calls -/

theorem handed_other {s : St} {c : Callback} (h : ∀ m, c ≠ .smsReceived m) : handedOver { s with callbacks := c :: s.callbacks } = handedOver s := by
  unfold handedOver
  cases c with
  | smsReceived m => exact absurd rfl (h m)
  | _ => rfl

theorem safe_callback {c : Callback} (h : ∀ m, c ≠ .smsReceived m) : Steps env (Guarded shelf came) (callback c) :=
  ⟨fun s => safe_same rfl rfl rfl (handed_other h)⟩
theorem safe_ussdLines (H : Keeping env.reply shelf came) (ls : List PyStr) : Steps env (Guarded shelf came) (handleUssd ls) := by unfold handleUssd; safely H
theorem safe_setAnswered (H : Keeping env.reply shelf came) (i : Nat) (v : Bool) : Steps env (Guarded shelf came) (setAnswered i v) := by
  have h := safe_callback (env := env) (shelf := shelf) (came := came) (c := .callStatus i) (fun m => by simp)
  unfold setAnswered; safely H
theorem safe_ringLoop (H : Keeping env.reply shelf came) (n : Option PyStr) : ∀ (l : List (Int × Nat)) (c : Option Nat), Steps env (Guarded shelf came) (ringLoop n l c)
  | [], c => by unfold ringLoop; safely H
  | (_, i) :: l, c => by
    have h1 := safe_ringLoop H n l
    unfold ringLoop; safely H
    all_goals exact h1 _
theorem safe_registerCall (c : CallObj) : Steps env (Guarded shelf came) (registerCall c) := ⟨fun s => safe_same rfl rfl rfl rfl⟩
theorem safe_registerNext (c : CallObj) : Steps env (Guarded shelf came) (registerNext c) := ⟨fun s => safe_same rfl rfl rfl rfl⟩
theorem safe_ringType (H : Keeping env.reply shelf came) (l : PyStr) : Steps env (Guarded shelf came) (ringType l) := by unfold ringType; safely H
theorem safe_callTypeOf (H : Keeping env.reply shelf came) (o : Option PyStr) : Steps env (Guarded shelf came) (callTypeOf o) := by cases o <;> (unfold callTypeOf; safely H)
theorem safe_incoming (H : Keeping env.reply shelf came) (ls : List PyStr) : Steps env (Guarded shelf came) (handleIncomingCall ls) := by
  have h1 := safe_ringLoop H
  have h2 : ∀ i, Steps env (Guarded shelf came) (callback (.incomingCall i)) := fun i => safe_callback (fun m => by simp)
  have h3 := safe_ringType H
  have h4 := safe_callTypeOf H
  unfold handleIncomingCall; safely H
  all_goals first | exact h1 _ _ _ | exact h2 _ | exact h3 _ | exact h4 _ | exact safe_registerNext _
theorem safe_initiated (H : Keeping env.reply shelf came) (a b : Int) : Steps env (Guarded shelf came) (handleCallInitiated a b) := by unfold handleCallInitiated; safely H
theorem safe_answered (H : Keeping env.reply shelf came) (o : Option Int) : Steps env (Guarded shelf came) (handleCallAnswered o) := by
  have h := safe_setAnswered H
  unfold handleCallAnswered; safely H
  all_goals exact h _ _
theorem safe_ended (H : Keeping env.reply shelf came) (c : Option Int) (a b : Bool) : Steps env (Guarded shelf came) (handleCallEnded c a b) := by
  have h := safe_setAnswered H
  unfold handleCallEnded; safely H
  all_goals exact h _ _
theorem safe_runCallHandler (H : Keeping env.reply shelf came) (h : CallHandler) (g : List PyStr) : Steps env (Guarded shelf came) (runCallHandler h g) := by
  have h1 := safe_initiated H
  have h2 := safe_answered H
  have h3 := safe_ended H
  unfold runCallHandler; safely H
  all_goals first | exact h1 _ _ | exact h2 _ | exact h3 _ _ _
theorem safe_report (line : PyStr) (h : ∀ mem idx, ¬ StoredAt py!"+CDSI:" line mem idx) : Steps env (Guarded shelf came) (handleSmsStatusReport line) := by
  refine ⟨fun s => ?_⟩
  have hg : rxGroups cdsiRegex line = none := by
    cases hg : rxGroups cdsiRegex line with
    | none => rfl
    | some g =>
      rw [cdsi_rx] at hg
      obtain ⟨mem, idx, -, h1⟩ := stored_iff.1 hg
      exact absurd h1 (h mem idx)
  have : handleSmsStatusReport line env s = (.ok (), s) := by
    unfold handleSmsStatusReport
    rw [hg]
    rfl
  rw [this]
  exact safe_pre.refl s
theorem safe_dispatch (H : Keeping env.reply shelf came) (hd : 0 < env.depth) (all : List PyStr) : ∀ ls : List PyStr,
    (∀ l ∈ ls, ∀ mem idx, ¬ StoredAt py!"+CDSI:" l mem idx) → Steps env (Guarded shelf came) (dispatchLoop all ls)
  | [], _ => by unfold dispatchLoop; safely H
  | l :: ls, hl => by
    have h0 := safe_dispatch H hd all ls (fun x hx => hl x (by simp [hx]))
    have h1 := safe_incoming H all
    have h2 := safe_received H hd l
    have h3 := safe_ussdLines H all
    have h4 := safe_report (env := env) (shelf := shelf) (came := came) l (hl l (by simp))
    have h5 := safe_runCallHandler H
    unfold dispatchLoop; safely H
    all_goals exact h5 _ _
theorem safe_clccQuery (H : Keeping env.reply shelf came) : Steps env (Guarded shelf came) clccQuery := by unfold clccQuery; safely H
theorem safe_pollStep (H : Keeping env.reply shelf came) (p : Poller) (seen : Option (Int × Int × Int × Int)) : Steps env (Guarded shelf came) (pollStep p seen) := by
  have h1 := safe_initiated H
  have h2 := safe_answered H
  have h3 := safe_ended H
  unfold pollStep; safely H
  all_goals first | exact h1 _ _ | exact h2 _ | exact h3 _ _ _
theorem safe_pollRound (H : Keeping env.reply shelf came) (p : Poller) : Steps env (Guarded shelf came) (pollRound p) := by
  have h0 := safe_clccQuery H
  have h1 := safe_pollStep H
  unfold pollRound; safely H
  all_goals exact h1 _ _
theorem safe_event (H : Keeping env.reply shelf came) (hd : 0 < env.depth) {e : Event} (he : NoReports e) : Steps env (Guarded shelf came) e.run := by
  cases e with
  | notify ls => exact ⟨fun s => (safe_dispatch H hd ls ls he).run s⟩
  | poll k =>
    refine ⟨fun s => ?_⟩
    simp only [Event.run]
    split
    · exact safe_pre.refl s
    · next p _ =>
      have := (safe_pollRound H p).run s
      split
      · next he => rw [he] at this; exact safe_pre.trans this (safe_same rfl rfl rfl rfl)
      · next he => rw [he] at this; exact safe_pre.trans this (safe_same rfl rfl rfl rfl)
theorem safe_await (H : Keeping env.reply shelf came) (hd : 0 < env.depth) (f : St → Bool) : ∀ es : List Event, (∀ e ∈ es, NoReports e) →
    Steps env (Guarded shelf came) (awaitEvent f es)
  | [], _ => by unfold awaitEvent; safely H
  | e :: es, he => by
    have h1 := safe_await H hd f es (fun x hx => he x (by simp [hx]))
    have h2 := safe_event H hd (he e (by simp))
    unfold awaitEvent; safely H
theorem safe_sendWait [PyUnicode] (H : Keeping env.reply shelf came) (hd : 0 < env.depth) (d t : PyStr) (f : Bool) {e du : List Event} (he : ∀ x ∈ e, NoReports x)
    (hdu : ∀ x ∈ du, NoReports x) : Steps env (Guarded shelf came) (sendSmsWait d t f e du) := by
  have h1 := safe_send H d t f
  have h2 := fun f => safe_await H hd f e he
  have h3 := fun f => safe_await H hd f du hdu
  unfold sendSmsWait; safely H
  all_goals first | exact h2 _ | exact h3 _
theorem safe_ussd (H : Keeping env.reply shelf came) (hd : 0 < env.depth) (x : PyStr) {du : List Event} (hdu : ∀ e ∈ du, NoReports e) :
    Steps env (Guarded shelf came) (sendUssd x du) := by
  have h1 := fun f => safe_await H hd f du hdu
  have h2 : Steps env (Guarded shelf came) (write (cusdCmd x)) := safe_write H (by simpa [cusdCmd] using nb_prefix py!"AT+CUSD" _)
  unfold sendUssd; safely H
  all_goals exact h1 _
theorem safe_cancel (H : Keeping env.reply shelf came) (u : Ussd) : Steps env (Guarded shelf came) u.cancel := by unfold Ussd.cancel; safely H
theorem safe_writeAtd (H : Keeping env.reply shelf came) (n : PyStr) : Steps env (Guarded shelf came) (writeAtd n) := by
  have hp : Unbidden (atdCmd n ++ [13]) := by simpa [atdCmd] using nb_prefix py!"ATD" _
  have h1 : Steps env (Guarded shelf came) (write (atdCmd n)) := safe_write H hp
  have h2 : Steps env (Guarded shelf came) (writeNoWait (atdCmd n)) := ⟨fun s => safe_one H hp.harmless s s.writeWait⟩
  unfold writeAtd; safely H
theorem safe_dial (H : Keeping env.reply shelf came) (hd : 0 < env.depth) (n : PyStr) (t : Nat) (cb : Bool) {du : List Event} (hdu : ∀ e ∈ du, NoReports e) :
    Steps env (Guarded shelf came) (dial n t cb du) := by
  have h1 := fun f => safe_await H hd f du hdu
  have h2 := safe_writeAtd H n
  unfold dial; safely H
  all_goals first | exact h1 _ | exact safe_registerNext _ | exact safe_registerCall _
theorem safe_hangup (H : Keeping env.reply shelf came) (i : Nat) : Steps env (Guarded shelf came) (hangup i) := by
  have h := safe_setAnswered H
  unfold hangup stopRinging hangupActive; safely H
  all_goals exact h _ _
theorem safe_answer (H : Keeping env.reply shelf came) (i : Nat) : Steps env (Guarded shelf came) (answer i) := by
  have h := safe_setAnswered H
  unfold answer; safely H
  all_goals exact h _ _
theorem nb_dtmf {s : St} {c : CallObj} {tones cmd : PyStr} (h : dtmfCmd (dtmfBase s c) tones = .ok cmd) : Unbidden (cmd ++ [13]) := by
  obtain ⟨r, rfl⟩ := dtmfCmd_prefix h
  unfold dtmfBase
  split
  · simpa using nb_prefix py!"AT^" _
  · simpa using nb_prefix py!"AT+VTS" _
theorem safe_dtmf (H : Keeping env.reply shelf came) (i : Nat) (t : PyStr) : Steps env (Guarded shelf came) (sendDtmfTone i t) := by
  unfold sendDtmfTone
  refine Steps.bind safe_pre (Steps.get safe_pre) fun s => ?_
  split
  · safely H
  · split
    · refine Steps.ofExcept_bind safe_pre fun cmd hcmd => ?_
      have : Steps env (Guarded shelf came) (write cmd) := safe_write H (nb_dtmf hcmd)
      safely H
    · safely H
theorem safe_discard {α : Type} {m : M α} (h : Steps env (Guarded shelf came) m) : Steps env (Guarded shelf came) (discard m) := by
  unfold discard
  exact Steps.bind safe_pre h fun _ => Steps.pure safe_pre _

/-- Every careful operation. -/
theorem safe_op [PyUnicode] (H : Keeping env.reply shelf came) (hd : 0 < env.depth) {op : Op} (h : Careful op) : Steps env (Guarded shelf came) op.run := by
  cases op with
  | event e => exact safe_event H hd h
  | setTextMode v => cases (show v = false from h); exact safe_pduMode
  | setSmsc n => exact safe_setSmsc H n
  | getSmsc => exact safe_discard (safe_getSmsc H)
  | signalStrength => exact safe_discard (safe_signalStrength H)
  | manufacturer => exact safe_discard (safe_manufacturer H)
  | model => exact safe_discard (safe_model H)
  | revision => exact safe_discard (safe_revision H)
  | imei => exact safe_discard (safe_imei H)
  | imsi => exact safe_discard (safe_imsi H)
  | networkName => exact safe_discard (safe_networkName H)
  | supportedCommands => exact safe_discard (safe_supportedCommands H)
  | waitForNetworkCoverage r => exact safe_discard (safe_coverage H r true)
  | read i m => exact safe_discard (safe_read H hd i h)
  | delete => exact h.elim
  | deleteMultiple => exact h.elim
  | list st m d => cases h.2; exact safe_discard (safe_list H hd st h.1)
  | process u => exact safe_process H hd u
  | send d t f => exact safe_discard (safe_send H d t f)
  | sendWait d t f e du => exact safe_discard (safe_sendWait H hd d t f h.1 h.2)
  | ussd x du => exact safe_discard (safe_ussd H hd x h)
  | ussdReply u x du =>
    refine safe_discard ?_
    have := safe_ussd H hd x (show ∀ e ∈ du, NoReports e from h)
    unfold Ussd.reply; safely H
  | ussdCancel u => exact safe_cancel H u
  | dial n t cb du => exact safe_discard (safe_dial H hd n t cb h)
  | answer c => exact safe_answer H c
  | hangup c => exact safe_hangup H c
  | dtmf c t => exact safe_dtmf H c t

theorem safe_ops [PyUnicode] (H : Keeping env.reply shelf came) (hd : 0 < env.depth) : ∀ (ops : List Op) (s : St), (∀ op ∈ ops, Careful op) →
    Guarded shelf came s (runOps env ops s)
  | [], s, _ => safe_pre.refl s
  | op :: ops, s, h => safe_pre.trans ((safe_op H hd (h op (by simp))).run s) (safe_ops H hd ops _ fun o ho => h o (by simp [ho]))

end Gsm
