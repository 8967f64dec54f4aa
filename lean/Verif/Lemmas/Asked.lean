import Verif.Spec.Asked
import Verif.Lemmas.ModemSteps
import Verif.Lemmas.ModemFrame
/-! # Lemmas: which commands are sent by whom -/
namespace Gsm
open M Spec

variable {env : Env} {ks : List Purpose}

/-- The commands that are sent are of these kinds. -/
abbrev SendsOnly (ks : List Purpose) : St → St → Prop := Frame (fun c => ∃ k ∈ ks, k.Of c) fun _ => ()

theorem kind_of {k : Purpose} {p rest : PyStr} (hk : k ≠ .body) (hp : p ∈ k.starts) : k.Of (p ++ rest ++ [13]) := by
  unfold Purpose.Of
  rw [if_neg hk]
  exact ⟨by simp, p, hp, ⟨rest ++ [13], by simp⟩⟩

theorem asked_write {k : Purpose} {data term : PyStr} {pe : Bool} (h : k ∈ ks) (hc : k.Of (data ++ term)) : Steps env (SendsOnly ks) (write data pe term) :=
  frame_write ⟨k, h, hc⟩ fun _ _ _ => rfl

macro "askedFor" h:term : tactic => `(tactic| (steps frame_pre) <;> try first
  | exact asked_write $h (by decide +kernel)
  | exact frame_same rfl rfl)

macro "askedNone" : tactic => `(tactic| (steps frame_pre) <;> try first
  | exact frame_same rfl rfl)

/-! ### Questions and settings -/

theorem as_signalStrength (h : .ask ∈ ks) : Steps env (SendsOnly ks) signalStrength := by unfold signalStrength; askedFor h
theorem as_manufacturer (h : .ask ∈ ks) : Steps env (SendsOnly ks) manufacturer := by unfold manufacturer; askedFor h
theorem as_model (h : .ask ∈ ks) : Steps env (SendsOnly ks) model := by unfold model; askedFor h
theorem as_revision (h : .ask ∈ ks) : Steps env (SendsOnly ks) revision := by unfold revision; askedFor h
theorem as_imei (h : .ask ∈ ks) : Steps env (SendsOnly ks) imei := by unfold imei; askedFor h
theorem as_imsi (h : .ask ∈ ks) : Steps env (SendsOnly ks) imsi := by unfold imsi; askedFor h
theorem as_networkName (h : .ask ∈ ks) : Steps env (SendsOnly ks) networkName := by unfold networkName; askedFor h
theorem as_supportedCommands (h : .ask ∈ ks) : Steps env (SendsOnly ks) supportedCommands := by unfold supportedCommands; askedFor h
theorem as_coverage (h : .ask ∈ ks) : ∀ (rounds : Nat) (b : Bool), Steps env (SendsOnly ks) (coverageLoop rounds b)
  | 0, _ => by unfold coverageLoop; askedNone
  | r + 1, true => by
    have h1 := fun b => as_coverage h r b
    unfold coverageLoop; askedFor h
    all_goals exact h1 _
  | r + 1, false => by
    have h1 := fun b => as_coverage h r b
    have h2 := as_signalStrength (env := env) h
    unfold coverageLoop; askedNone
    all_goals exact h1 _
theorem as_getSmsc (h : .centre ∈ ks) : Steps env (SendsOnly ks) getSmsc := by unfold getSmsc; askedFor h
theorem as_setSmsc (h : .centre ∈ ks) (n : Option PyStr) : Steps env (SendsOnly ks) (setSmsc n) := by
  have h1 : ∀ n, Steps env (SendsOnly ks) (write (cscaCmd n)) := fun n => asked_write h (by
    have := kind_of (k := .centre) (p := py!"AT+CSCA") (rest := (cscaCmd n).drop 7) (by decide) (by decide)
    simpa [cscaCmd] using this)
  unfold setSmsc; askedFor h
  all_goals exact h1 _
theorem as_mode (h : .mode ∈ ks) (v : Bool) : Steps env (SendsOnly ks) (setSmsTextMode v) := by
  have h1 : Steps env (SendsOnly ks) (write (py!"AT+CMGF=" ++ (if v then py!"1" else py!"0"))) := asked_write h (by cases v <;> decide +kernel)
  unfold setSmsTextMode; askedFor h

/-! ### Messages -/

theorem as_memory (h : .memory ∈ ks) (m w : Option PyStr) : Steps env (SendsOnly ks) (setSmsMemory m w) := by
  have h1 : ∀ m, Steps env (SendsOnly ks) (write (cpmsCmd m)) := fun m => asked_write h (by
    have := kind_of (k := .memory) (p := py!"AT+CPMS=") (rest := (cpmsCmd m).drop 8) (by decide) (by decide)
    simpa [cpmsCmd] using this)
  unfold setSmsMemory; askedFor h
  all_goals exact h1 _
theorem as_noMemory (w : Option PyStr) : Steps env (SendsOnly ks) (setSmsMemory none w) := by
  unfold setSmsMemory; askedNone
theorem as_read (h : .memory ∈ ks) (h' : .fetch ∈ ks) (i : PyStr) (m : Option PyStr) : Steps env (SendsOnly ks) (readStoredSms i m) := by
  have h1 := as_memory (env := env) h m none
  have h2 : Steps env (SendsOnly ks) (write (cmgrCmd i)) := asked_write h' (by
    have := kind_of (k := .fetch) (p := py!"AT+CMGR=") (rest := (cmgrCmd i).drop 8) (by decide) (by decide)
    simpa [cmgrCmd] using this)
  unfold readStoredSms; askedFor h
theorem erase_cmd (h' : .erase ∈ ks) (i : PyStr) : Steps env (SendsOnly ks) (write (cmgdCmd i)) := asked_write h' (by
  have := kind_of (k := .erase) (p := py!"AT+CMGD=") (rest := (cmgdCmd i).drop 8) (by decide) (by decide)
  simpa [cmgdCmd] using this)
theorem as_delete (h : .memory ∈ ks) (h' : .erase ∈ ks) (i : PyStr) (m : Option PyStr) : Steps env (SendsOnly ks) (deleteStoredSms i m) := by
  have h1 := as_memory (env := env) h m none
  have h2 := erase_cmd (env := env) h' i
  unfold deleteStoredSms; askedFor h
theorem as_deleteHere (h' : .erase ∈ ks) (i : PyStr) : Steps env (SendsOnly ks) (deleteStoredSms i none) := by
  have h1 := as_noMemory (env := env) (ks := ks) none
  have h2 := erase_cmd (env := env) h' i
  unfold deleteStoredSms; askedFor h'
theorem flag_cmd (h' : .erase ∈ ks) (f : Int) : Steps env (SendsOnly ks) (write (py!"AT+CMGD=1," ++ intStr f)) := asked_write h' (by
  have := kind_of (k := .erase) (p := py!"AT+CMGD=") (rest := py!"1," ++ intStr f) (by decide) (by decide)
  simpa using this)
theorem as_deleteMultiple (h : .memory ∈ ks) (h' : .erase ∈ ks) (f : Int) (m : Option PyStr) : Steps env (SendsOnly ks) (deleteMultipleStoredSms f m) := by
  have h1 := as_memory (env := env) h m none
  have h2 := flag_cmd (env := env) h' f
  unfold deleteMultipleStoredSms; askedFor h
theorem as_deleteMultipleHere (h' : .erase ∈ ks) (f : Int) : Steps env (SendsOnly ks) (deleteMultipleStoredSms f none) := by
  have h1 := as_noMemory (env := env) (ks := ks) none
  have h2 := flag_cmd (env := env) h' f
  unfold deleteMultipleStoredSms; askedFor h'
theorem as_deleteAll (h' : .erase ∈ ks) : ∀ l : List Int, Steps env (SendsOnly ks) (deleteAll l)
  | [] => by unfold deleteAll; askedNone
  | i :: l => by
    have h1 := as_deleteAll h' l
    have h2 := fun i => as_deleteHere (env := env) h' i
    unfold deleteAll; askedNone <;> first | exact h2 _ | exact h1
theorem as_list (hm : .memory ∈ ks ∨ m = none) (hl : .list ∈ ks) (st : Int) (d : Bool) (hd : d = true → .erase ∈ ks) : Steps env (SendsOnly ks) (listStoredSms st m d) := by
  have h1 : Steps env (SendsOnly ks) (setSmsMemory m none) := by
    rcases hm with hm | rfl
    · exact as_memory hm m none
    · exact as_noMemory none
  have hc : ∀ t c, listCommand t st = .ok c → Steps env (SendsOnly ks) (write c) := by
    intro t c hc
    refine asked_write hl ?_
    unfold listCommand at hc
    split at hc
    · split at hc
      · cases hc
      · next n _ =>
        cases hc
        have := kind_of (k := .list) (p := py!"AT+CMGL=") (rest := py!"\"" ++ (n ++ py!"\"")) (by decide) (by decide)
        simpa using this
    · cases hc
      exact kind_of (k := .list) (by decide) (by decide)
  cases d with
  | false =>
    unfold listStoredSms deleteListed
    refine Steps.bind frame_pre h1 fun _ => Steps.bind frame_pre (Steps.get frame_pre) fun s => Steps.ofExcept_bind frame_pre fun cmd hcmd => ?_
    have := hc _ _ hcmd
    askedNone <;> contradiction
  | true =>
    have hd := hd rfl
    have h4 := as_deleteMultipleHere (env := env) hd 4
    have h5 : ∀ l : List Int, Steps env (SendsOnly ks) (deleteSet l) := fun l => ⟨fun s => (as_deleteAll hd _).run s⟩
    unfold listStoredSms deleteListed
    refine Steps.bind frame_pre h1 fun _ => Steps.bind frame_pre (Steps.get frame_pre) fun s => Steps.ofExcept_bind frame_pre fun cmd hcmd => ?_
    have := hc _ _ hcmd
    askedNone <;> exact h5 _
theorem as_callback (c : Callback) : Steps env (SendsOnly ks) (callback c) := ⟨fun _ => frame_same rfl rfl⟩
theorem as_callbackAll : ∀ ms : List Msg, Steps env (SendsOnly ks) (callbackAll ms)
  | [] => by unfold callbackAll; askedNone
  | m :: ms => by
    have h1 := as_callbackAll ms
    have h2 := as_callback (env := env) (ks := ks) (.smsReceived m)
    unfold callbackAll; askedNone
theorem as_process (hl : .list ∈ ks) (he : .erase ∈ ks) (u : Bool) : Steps env (SendsOnly ks) (processStoredSms u) := by
  have h1 := as_list (env := env) (m := none) (.inr rfl) hl 1 true (fun _ => he)
  have h2 := as_list (env := env) (m := none) (.inr rfl) hl 0 true (fun _ => he)
  have h3 := as_callbackAll (env := env) (ks := ks)
  unfold processStoredSms; askedNone <;> exact h3 _
theorem as_sendPdus (hp : .post ∈ ks) (hb : .body ∈ ks) : ∀ (ps : List Pdu) (r : Option PyStr), Steps env (SendsOnly ks) (sendPdus ps r)
  | [], _ => by unfold sendPdus; askedNone
  | p :: ps, _ => by
    have h0 := fun r => as_sendPdus hp hb ps r
    have h1 : Steps env (SendsOnly ks) (write (py!"AT+CMGS=" ++ decStr p.tpduLength)) := asked_write hp (kind_of (k := .post) (by decide) (by decide))
    have h2 : Steps env (SendsOnly ks) (write (pduHex p.data) true [26]) := asked_write hb (by simp [Purpose.Of])
    unfold sendPdus; askedNone <;> exact h0 _
theorem as_send [PyUnicode] (hp : .post ∈ ks) (hb : .body ∈ ks) (d t : PyStr) (f : Bool) : Steps env (SendsOnly ks) (sendSms d t f) := by
  have h1 : Steps env (SendsOnly ks) (write (py!"AT+CMGS=\"" ++ d ++ py!"\"")) := asked_write hp (by
    have := kind_of (k := .post) (p := py!"AT+CMGS=") (rest := py!"\"" ++ (d ++ py!"\"")) (by decide) (by decide)
    simpa using this)
  have h2 : Steps env (SendsOnly ks) (write t true [26]) := asked_write hb (by simp [Purpose.Of])
  unfold sendSms recordSent; askedNone <;> exact as_sendPdus hp hb _ _

/-! ### Notifications -/

theorem as_received (hm : .memory ∈ ks) (hf : .fetch ∈ ks) (he : .erase ∈ ks) (l : PyStr) : Steps env (SendsOnly ks) (handleSmsReceived l) := by
  have h1 := fun i m => as_read (env := env) hm hf i m
  have h2 := fun i => as_deleteHere (env := env) he i
  unfold handleSmsReceived; askedNone <;> first | exact h1 _ _ | exact h2 _ | exact as_callback _
theorem as_report (hm : .memory ∈ ks) (hf : .fetch ∈ ks) (he : .erase ∈ ks) (l : PyStr) : Steps env (SendsOnly ks) (handleSmsStatusReport l) := by
  have h1 := fun i m => as_read (env := env) hm hf i m
  have h2 := fun i => as_deleteHere (env := env) he i
  unfold handleSmsStatusReport updateSent; askedNone <;> first | exact h1 _ _ | exact h2 _ | exact as_callback _
theorem as_handleUssd (ls : List PyStr) : Steps env (SendsOnly ks) (handleUssd ls) := by unfold handleUssd; askedNone
theorem as_setAnswered (i : Nat) (v : Bool) : Steps env (SendsOnly ks) (setAnswered i v) := by
  have h := as_callback (env := env) (ks := ks) (.callStatus i)
  unfold setAnswered; askedNone
theorem as_ringLoop (n : Option PyStr) : ∀ (l : List (Int × Nat)) (c : Option Nat), Steps env (SendsOnly ks) (ringLoop n l c)
  | [], c => by unfold ringLoop; askedNone
  | (_, i) :: l, c => by
    have h1 := as_ringLoop n l
    unfold ringLoop; askedNone
    all_goals exact h1 _
theorem as_registerCall (c : CallObj) : Steps env (SendsOnly ks) (registerCall c) := ⟨fun _ => frame_same rfl rfl⟩
theorem as_registerNext (c : CallObj) : Steps env (SendsOnly ks) (registerNext c) := ⟨fun _ => frame_same rfl rfl⟩
theorem as_ringType (h : .ringType ∈ ks) (l : PyStr) : Steps env (SendsOnly ks) (ringType l) := by unfold ringType; askedFor h
theorem as_callTypeOf (o : Option PyStr) : Steps env (SendsOnly ks) (callTypeOf o) := by cases o <;> (unfold callTypeOf; askedNone)
theorem as_incoming (h : .ringType ∈ ks) (ls : List PyStr) : Steps env (SendsOnly ks) (handleIncomingCall ls) := by
  unfold handleIncomingCall; askedNone
  all_goals first | exact as_ringLoop _ _ _ | exact as_callback _ | exact as_ringType h _ | exact as_callTypeOf _ | exact as_registerNext _
theorem as_initiated (a b : Int) : Steps env (SendsOnly ks) (handleCallInitiated a b) := by unfold handleCallInitiated; askedNone
theorem as_answered (o : Option Int) : Steps env (SendsOnly ks) (handleCallAnswered o) := by
  unfold handleCallAnswered; askedNone
  all_goals exact as_setAnswered _ _
theorem as_ended (c : Option Int) (a b : Bool) : Steps env (SendsOnly ks) (handleCallEnded c a b) := by
  unfold handleCallEnded; askedNone
  all_goals exact as_setAnswered _ _
theorem as_runCallHandler (h : CallHandler) (g : List PyStr) : Steps env (SendsOnly ks) (runCallHandler h g) := by
  unfold runCallHandler; askedNone
  all_goals first | exact as_initiated _ _ | exact as_answered _ | exact as_ended _ _ _
theorem as_dispatch (hr : .ringType ∈ ks) (hm : .memory ∈ ks) (hf : .fetch ∈ ks) (he : .erase ∈ ks) (all : List PyStr) : ∀ ls : List PyStr,
    Steps env (SendsOnly ks) (dispatchLoop all ls)
  | [] => by unfold dispatchLoop; askedNone
  | l :: ls => by
    have h0 := as_dispatch hr hm hf he all ls
    have h1 := as_incoming (env := env) hr all
    have h2 := as_received (env := env) hm hf he l
    have h3 := as_handleUssd (env := env) (ks := ks) all
    have h4 := as_report (env := env) hm hf he l
    unfold dispatchLoop; askedNone
    all_goals exact as_runCallHandler _ _
theorem as_pollStep (p : Poller) (seen : Option (Int × Int × Int × Int)) : Steps env (SendsOnly ks) (pollStep p seen) := by
  unfold pollStep; askedNone
  all_goals first | exact as_initiated _ _ | exact as_answered _ | exact as_ended _ _ _
theorem as_pollRound (h : .ask ∈ ks) (p : Poller) : Steps env (SendsOnly ks) (pollRound p) := by
  have h0 : Steps env (SendsOnly ks) clccQuery := by unfold clccQuery; askedFor h
  unfold pollRound; askedNone
  all_goals exact as_pollStep _ _
theorem as_event {e : Event} (h : ∀ k ∈ eventMay e, k ∈ ks) : Steps env (SendsOnly ks) e.run := by
  cases e with
  | notify ls => exact ⟨fun s => (as_dispatch (h _ (by simp [eventMay])) (h _ (by simp [eventMay])) (h _ (by simp [eventMay])) (h _ (by simp [eventMay])) ls ls).run s⟩
  | poll k =>
    refine ⟨fun s => ?_⟩
    simp only [Event.run]
    split
    · exact frame_pre.refl s
    · next p _ =>
      have := (as_pollRound (env := env) (h .ask (by simp [eventMay])) p).run s
      split
      · next he => rw [he] at this; exact frame_pre.trans this (frame_same rfl rfl)
      · next he => rw [he] at this; exact frame_pre.trans this (frame_same rfl rfl)
theorem as_await (f : St → Bool) : ∀ es : List Event, (∀ k ∈ es.flatMap eventMay, k ∈ ks) → Steps env (SendsOnly ks) (awaitEvent f es)
  | [], _ => by unfold awaitEvent; askedNone
  | e :: es, he => by
    have h1 := as_await f es (fun x hx => he x (by simp at hx ⊢; exact .inr hx))
    have h2 := as_event (env := env) (e := e) (fun x hx => he x (by simp; exact .inl hx))
    unfold awaitEvent; askedNone

/-! ### Methods that wait, and calls -/

theorem as_sendWait [PyUnicode] (hp : .post ∈ ks) (hb : .body ∈ ks) (d t : PyStr) (f : Bool) {e du : List Event} (he : ∀ k ∈ e.flatMap eventMay, k ∈ ks)
    (hdu : ∀ k ∈ du.flatMap eventMay, k ∈ ks) : Steps env (SendsOnly ks) (sendSmsWait d t f e du) := by
  have h1 := as_send (env := env) hp hb d t f
  unfold sendSmsWait; askedNone
  all_goals first | exact as_await _ _ he | exact as_await _ _ hdu
theorem as_ussd (hu : .ussd ∈ ks) (x : PyStr) {du : List Event} (hdu : ∀ k ∈ du.flatMap eventMay, k ∈ ks) : Steps env (SendsOnly ks) (sendUssd x du) := by
  have h2 : Steps env (SendsOnly ks) (write (cusdCmd x)) := asked_write hu (by
    have := kind_of (k := .ussd) (p := py!"AT+CUSD=1") (rest := (cusdCmd x).drop 9) (by decide) (by decide)
    simpa [cusdCmd] using this)
  unfold sendUssd; askedNone
  all_goals exact as_await _ _ hdu
theorem as_dial (hk : .dial ∈ ks) (n : PyStr) (t : Nat) (cb : Bool) {du : List Event} (hdu : ∀ k ∈ du.flatMap eventMay, k ∈ ks) : Steps env (SendsOnly ks) (dial n t cb du) := by
  have hp : Purpose.dial.Of (atdCmd n ++ [13]) := by
    have := kind_of (k := .dial) (p := py!"ATD") (rest := (atdCmd n).drop 3) (by decide) (by decide)
    simpa [atdCmd] using this
  have h1 : Steps env (SendsOnly ks) (write (atdCmd n)) := asked_write hk hp
  have h2 : Steps env (SendsOnly ks) (writeNoWait (atdCmd n)) := ⟨fun s => ⟨⟨[atdCmd n ++ [13]], rfl, fun c hc => ⟨_, hk, by rw [List.mem_singleton.1 hc]; exact hp⟩⟩, rfl⟩⟩
  unfold dial writeAtd; askedNone
  all_goals first | exact as_await _ _ hdu | exact as_registerNext _ | exact as_registerCall _
theorem as_hangup (h : .hangUp ∈ ks) (i : Nat) : Steps env (SendsOnly ks) (hangup i) := by
  unfold hangup stopRinging hangupActive; askedFor h
  all_goals exact as_setAnswered _ _
theorem as_answer (h : .answer ∈ ks) (i : Nat) : Steps env (SendsOnly ks) (answer i) := by
  unfold answer; askedFor h
  all_goals exact as_setAnswered _ _
theorem as_dtmf (h : .tones ∈ ks) (i : Nat) (t : PyStr) : Steps env (SendsOnly ks) (sendDtmfTone i t) := by
  unfold sendDtmfTone
  refine Steps.bind frame_pre (Steps.get frame_pre) fun s => ?_
  split
  · askedNone
  · split
    · refine Steps.ofExcept_bind frame_pre fun cmd hcmd => ?_
      have : Steps env (SendsOnly ks) (write cmd) := asked_write h (by
        obtain ⟨r, rfl⟩ := dtmfCmd_prefix hcmd
        unfold dtmfBase
        split
        · next c _ _ _ =>
          have := kind_of (k := .tones) (p := py!"AT^DTMF=") (rest := intStr c.id ++ (py!"," ++ r)) (by decide) (by decide)
          simpa using this
        · have := kind_of (k := .tones) (p := py!"AT+VTS=") (rest := r) (by decide) (by decide)
          simpa using this)
      askedNone
    · askedNone
theorem as_discard {α : Type} {m : M α} (h : Steps env (SendsOnly ks) m) : Steps env (SendsOnly ks) (discard m) := by
  unfold discard
  exact Steps.bind frame_pre h fun _ => Steps.pure frame_pre _

/-- Every operation. -/
theorem as_op [PyUnicode] (op : Op) : Steps env (SendsOnly (opMay op)) op.run := by
  cases op with
  | event e => exact as_event fun _ h => h
  | setTextMode v => exact as_mode (by simp [opMay]) v
  | setSmsc n => exact as_setSmsc (by simp [opMay]) n
  | getSmsc => exact as_discard (as_getSmsc (by simp [opMay]))
  | signalStrength => exact as_discard (as_signalStrength (by simp [opMay]))
  | manufacturer => exact as_discard (as_manufacturer (by simp [opMay]))
  | model => exact as_discard (as_model (by simp [opMay]))
  | revision => exact as_discard (as_revision (by simp [opMay]))
  | imei => exact as_discard (as_imei (by simp [opMay]))
  | imsi => exact as_discard (as_imsi (by simp [opMay]))
  | networkName => exact as_discard (as_networkName (by simp [opMay]))
  | supportedCommands => exact as_discard (as_supportedCommands (by simp [opMay]))
  | waitForNetworkCoverage r => exact as_discard (as_coverage (by simp [opMay]) r true)
  | read i m => exact as_discard (as_read (by simp [opMay]) (by simp [opMay]) i m)
  | delete i m => exact as_delete (by simp [opMay]) (by simp [opMay]) i m
  | deleteMultiple f m => exact as_deleteMultiple (by simp [opMay]) (by simp [opMay]) f m
  | list st m d =>
    refine as_discard (as_list (.inl ?_) ?_ st d ?_)
    · cases d <;> simp [opMay]
    · cases d <;> simp [opMay]
    · rintro rfl; simp [opMay]
  | process u => exact as_process (by simp [opMay]) (by simp [opMay]) u
  | send d t f => exact as_discard (as_send (by simp [opMay]) (by simp [opMay]) d t f)
  | sendWait d t f e du =>
    refine as_discard (as_sendWait (by simp [opMay]) (by simp [opMay]) d t f ?_ ?_)
    · intro k hk; simp only [opMay, List.flatMap_append, List.mem_append]; exact .inr (.inl hk)
    · intro k hk; simp only [opMay, List.flatMap_append, List.mem_append]; exact .inr (.inr hk)
  | ussd x du => exact as_discard (as_ussd (by simp [opMay]) x fun k hk => List.mem_cons_of_mem _ hk)
  | ussdReply u x du =>
    refine as_discard ?_
    unfold Ussd.reply
    by_cases hu : u.sessionActive
    · rw [if_pos hu]; simp only [opMay, if_pos hu]
      exact as_ussd (by simp) x fun k hk => List.mem_cons_of_mem _ hk
    · rw [if_neg hu]; askedNone
  | ussdCancel u =>
    simp only [Op.run]
    unfold Ussd.cancel
    by_cases hu : u.sessionActive
    · have h : Purpose.ussdEnd ∈ opMay (.ussdCancel u) := by simp [opMay, hu]
      askedFor h
    · rw [if_neg hu]; askedNone
  | dial n t cb du => exact as_discard (as_dial (by simp [opMay]) n t cb fun k hk => List.mem_cons_of_mem _ hk)
  | answer i => exact as_answer (by simp [opMay]) i
  | hangup i => exact as_hangup (by simp [opMay]) i
  | dtmf i t => exact as_dtmf (by simp [opMay]) i t

end Gsm
