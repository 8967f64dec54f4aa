import Verif.Spec.Idle
import Verif.Lemmas.ModemSteps
import Verif.Lemmas.ModemFrame
import Verif.Props.ModemNotify
/-! # Lemmas: who changes what is awaited -/
namespace Gsm
open M Spec

variable {env : Env}

/-- What is awaited stays awaited, and nothing else is. -/
abbrev SameWaits : St → St → Prop := Frame (fun _ => True) waits

theorem iw_write {data term : PyStr} {pe : Bool} : Steps env SameWaits (write data pe term) := frame_write trivial fun _ _ _ => rfl

macro "idles" : tactic => `(tactic| (steps frame_pre) <;> try first
  | exact iw_write
  | exact frame_same rfl rfl)

theorem iw_signalStrength : Steps env SameWaits signalStrength := by unfold signalStrength; idles
theorem iw_manufacturer : Steps env SameWaits manufacturer := by unfold manufacturer; idles
theorem iw_model : Steps env SameWaits model := by unfold model; idles
theorem iw_revision : Steps env SameWaits revision := by unfold revision; idles
theorem iw_imei : Steps env SameWaits imei := by unfold imei; idles
theorem iw_imsi : Steps env SameWaits imsi := by unfold imsi; idles
theorem iw_networkName : Steps env SameWaits networkName := by unfold networkName; idles
theorem iw_supportedCommands : Steps env SameWaits supportedCommands := by unfold supportedCommands; idles
theorem iw_coverage : ∀ (rounds : Nat) (b : Bool), Steps env SameWaits (coverageLoop rounds b)
  | 0, _ => by unfold coverageLoop; idles
  | r + 1, true => by
    have h1 := fun b => iw_coverage r b
    unfold coverageLoop; idles
    all_goals exact h1 _
  | r + 1, false => by
    have h1 := fun b => iw_coverage r b
    have h2 := iw_signalStrength (env := env)
    unfold coverageLoop; idles
    all_goals exact h1 _
theorem iw_getSmsc : Steps env SameWaits getSmsc := by unfold getSmsc; idles
theorem iw_setSmsc (n : Option PyStr) : Steps env SameWaits (setSmsc n) := by unfold setSmsc; idles
theorem iw_mode (v : Bool) : Steps env SameWaits (setSmsTextMode v) := by unfold setSmsTextMode; idles
theorem iw_memory (m w : Option PyStr) : Steps env SameWaits (setSmsMemory m w) := by unfold setSmsMemory; idles
theorem iw_read (i : PyStr) (m : Option PyStr) : Steps env SameWaits (readStoredSms i m) := by
  have h1 := iw_memory (env := env) m none
  unfold readStoredSms; idles
theorem iw_delete (i : PyStr) (m : Option PyStr) : Steps env SameWaits (deleteStoredSms i m) := by
  have h1 := iw_memory (env := env) m none
  unfold deleteStoredSms; idles
theorem iw_deleteMultiple (f : Int) (m : Option PyStr) : Steps env SameWaits (deleteMultipleStoredSms f m) := by
  have h1 := iw_memory (env := env) m none
  unfold deleteMultipleStoredSms; idles
theorem iw_deleteAll : ∀ l : List Int, Steps env SameWaits (deleteAll l)
  | [] => by unfold deleteAll; idles
  | i :: l => by
    have h1 := iw_deleteAll l
    have h2 := fun i => iw_delete (env := env) i none
    unfold deleteAll; idles <;> first | exact h2 _ | exact h1
theorem iw_list (st : Int) (m : Option PyStr) (d : Bool) : Steps env SameWaits (listStoredSms st m d) := by
  have h1 := iw_memory (env := env) m none
  have h4 := iw_deleteMultiple (env := env) 4 none
  have h5 : ∀ l : List Int, Steps env SameWaits (deleteSet l) := fun l => ⟨fun s => (iw_deleteAll _).run s⟩
  unfold listStoredSms deleteListed; idles <;> exact h5 _
theorem iw_callback (c : Callback) : Steps env SameWaits (callback c) := ⟨fun _ => frame_same rfl rfl⟩
theorem iw_callbackAll : ∀ ms : List Msg, Steps env SameWaits (callbackAll ms)
  | [] => by unfold callbackAll; idles
  | m :: ms => by
    have h1 := iw_callbackAll ms
    have h2 := iw_callback (env := env) (.smsReceived m)
    unfold callbackAll; idles
theorem iw_process (u : Bool) : Steps env SameWaits (processStoredSms u) := by
  have h1 := iw_list (env := env) 1 none true
  have h2 := iw_list (env := env) 0 none true
  have h3 := iw_callbackAll (env := env)
  unfold processStoredSms; idles <;> exact h3 _
theorem iw_sendPdus : ∀ (ps : List Pdu) (r : Option PyStr), Steps env SameWaits (sendPdus ps r)
  | [], _ => by unfold sendPdus; idles
  | p :: ps, _ => by
    have h0 := fun r => iw_sendPdus ps r
    unfold sendPdus; idles <;> exact h0 _
theorem iw_send [PyUnicode] (d t : PyStr) (f : Bool) : Steps env SameWaits (sendSms d t f) := by
  unfold sendSms recordSent; idles <;> exact iw_sendPdus _ _

/-! ### Notifications -/

theorem iw_received (l : PyStr) : Steps env SameWaits (handleSmsReceived l) := by
  have h1 := fun i m => iw_read (env := env) i m
  have h2 := fun i => iw_delete (env := env) i none
  unfold handleSmsReceived; idles <;> first | exact h1 _ _ | exact h2 _ | exact iw_callback _
theorem iw_signal (c : Callback) : Steps env SameWaits (do
    let s ← get
    if s.smsStatusReportEvent.isSome then modify fun s => { s with smsStatusReportEvent := some true } else callback c) := by
  refine Steps.get_bind fun s => ?_
  split
  · next h => exact frame_same rfl (by simp [waits, run_modify, h])
  · exact (iw_callback c).run s
theorem iw_report (l : PyStr) : Steps env SameWaits (handleSmsStatusReport l) := by
  have h1 := fun i m => iw_read (env := env) i m
  have h2 := fun i => iw_delete (env := env) i none
  have h3 := iw_signal (env := env)
  unfold handleSmsStatusReport updateSent
  split
  · refine Steps.bind frame_pre (h1 _ _) fun r => Steps.bind frame_pre (h2 _) fun _ => ?_
    split
    · exact Steps.raise frame_pre _
    · exact Steps.bind frame_pre ⟨fun _ => frame_same rfl rfl⟩ fun _ => h3 _
  · exact Steps.pure frame_pre _
theorem iw_handleUssd (ls : List PyStr) : Steps env SameWaits (handleUssd ls) := by
  unfold handleUssd
  refine Steps.get_bind fun s => ?_
  split
  · next h =>
    rw [run_bind, run_ofExcept]
    cases parseCusdResponse ls with
    | ok r => exact frame_same rfl (by simp [waits, run_modify, h])
    | error e => exact frame_pre.refl s
  · exact frame_pre.refl s
theorem iw_setAnswered (i : Nat) (v : Bool) : Steps env SameWaits (setAnswered i v) := by
  have h := iw_callback (env := env) (.callStatus i)
  unfold setAnswered; idles
theorem iw_ringLoop (n : Option PyStr) : ∀ (l : List (Int × Nat)) (c : Option Nat), Steps env SameWaits (ringLoop n l c)
  | [], c => by unfold ringLoop; idles
  | (_, i) :: l, c => by
    have h1 := iw_ringLoop n l
    unfold ringLoop; idles
    all_goals exact h1 _
theorem iw_registerCall (c : CallObj) : Steps env SameWaits (registerCall c) := ⟨fun _ => frame_same rfl rfl⟩
theorem iw_registerNext (c : CallObj) : Steps env SameWaits (registerNext c) := ⟨fun _ => frame_same rfl rfl⟩
theorem iw_ringType (l : PyStr) : Steps env SameWaits (ringType l) := by unfold ringType; idles
theorem iw_callTypeOf (o : Option PyStr) : Steps env SameWaits (callTypeOf o) := by cases o <;> (unfold callTypeOf; idles)
theorem iw_incoming (ls : List PyStr) : Steps env SameWaits (handleIncomingCall ls) := by
  unfold handleIncomingCall; idles
  all_goals first | exact iw_ringLoop _ _ _ | exact iw_callback _ | exact iw_ringType _ | exact iw_callTypeOf _ | exact iw_registerNext _
theorem iw_initiated (a b : Int) : Steps env SameWaits (handleCallInitiated a b) := by
  unfold handleCallInitiated
  refine Steps.get_bind fun s => ?_
  split
  · next h => exact frame_same rfl (by simp [waits, run_modify, h])
  · exact frame_pre.refl s
theorem iw_answered (o : Option Int) : Steps env SameWaits (handleCallAnswered o) := by
  unfold handleCallAnswered; idles
  all_goals exact iw_setAnswered _ _
theorem iw_ended (c : Option Int) (a b : Bool) : Steps env SameWaits (handleCallEnded c a b) := by
  unfold handleCallEnded; idles
  all_goals exact iw_setAnswered _ _
theorem iw_runCallHandler (h : CallHandler) (g : List PyStr) : Steps env SameWaits (runCallHandler h g) := by
  unfold runCallHandler; idles
  all_goals first | exact iw_initiated _ _ | exact iw_answered _ | exact iw_ended _ _ _
theorem iw_dispatch (all : List PyStr) : ∀ ls : List PyStr, Steps env SameWaits (dispatchLoop all ls)
  | [] => by unfold dispatchLoop; idles
  | l :: ls => by
    have h0 := iw_dispatch all ls
    have h1 := iw_incoming (env := env) all
    have h2 := iw_received (env := env) l
    have h3 := iw_handleUssd (env := env) all
    have h4 := iw_report (env := env) l
    unfold dispatchLoop; idles
    all_goals exact iw_runCallHandler _ _
theorem iw_pollStep (p : Poller) (seen : Option (Int × Int × Int × Int)) : Steps env SameWaits (pollStep p seen) := by
  unfold pollStep; idles
  all_goals first | exact iw_initiated _ _ | exact iw_answered _ | exact iw_ended _ _ _
theorem iw_pollRound (p : Poller) : Steps env SameWaits (pollRound p) := by
  have h0 : Steps env SameWaits clccQuery := by unfold clccQuery; idles
  unfold pollRound; idles
  all_goals exact iw_pollStep _ _
theorem iw_event (e : Event) : Steps env SameWaits e.run := by
  cases e with
  | notify ls => exact ⟨fun s => (iw_dispatch ls ls).run s⟩
  | poll k =>
    refine ⟨fun s => ?_⟩
    simp only [Event.run]
    split
    · exact frame_pre.refl s
    · next p _ =>
      have := (iw_pollRound (env := env) p).run s
      split
      · next he => rw [he] at this; exact frame_pre.trans this (frame_same rfl rfl)
      · next he => rw [he] at this; exact frame_pre.trans this (frame_same rfl rfl)
theorem iw_await (f : St → Bool) : ∀ es : List Event, Steps env SameWaits (awaitEvent f es)
  | [] => by unfold awaitEvent; idles
  | e :: es => by
    have h1 := iw_await f es
    have h2 := iw_event (env := env) e
    unfold awaitEvent; idles
theorem iw_hangup (i : Nat) : Steps env SameWaits (hangup i) := by
  unfold hangup stopRinging hangupActive; idles
  all_goals exact iw_setAnswered _ _
theorem iw_answer (i : Nat) : Steps env SameWaits (answer i) := by
  unfold answer; idles
  all_goals exact iw_setAnswered _ _
theorem iw_dtmf (i : Nat) (t : PyStr) : Steps env SameWaits (sendDtmfTone i t) := by unfold sendDtmfTone; idles
theorem iw_discard {α : Type} {m : M α} (h : Steps env SameWaits m) : Steps env SameWaits (discard m) := by
  unfold discard
  exact Steps.bind frame_pre h fun _ => Steps.pure frame_pre _
theorem iw_writeAtd (n : PyStr) : Steps env SameWaits (writeAtd n) := by
  have h2 : Steps env SameWaits (writeNoWait (atdCmd n)) := ⟨fun s => ⟨⟨[atdCmd n ++ [13]], rfl, fun _ _ => trivial⟩, rfl⟩⟩
  unfold writeAtd; idles

/-- Every method that does not wait. -/
theorem iw_op [PyUnicode] {op : Op} (h : Waiting op = false) : Steps env SameWaits op.run := by
  cases op with
  | event e => exact iw_event e
  | setTextMode v => exact iw_mode v
  | setSmsc n => exact iw_setSmsc n
  | getSmsc => exact iw_discard iw_getSmsc
  | signalStrength => exact iw_discard iw_signalStrength
  | manufacturer => exact iw_discard iw_manufacturer
  | model => exact iw_discard iw_model
  | revision => exact iw_discard iw_revision
  | imei => exact iw_discard iw_imei
  | imsi => exact iw_discard iw_imsi
  | networkName => exact iw_discard iw_networkName
  | supportedCommands => exact iw_discard iw_supportedCommands
  | waitForNetworkCoverage r => exact iw_discard (iw_coverage r true)
  | read i m => exact iw_discard (iw_read i m)
  | delete i m => exact iw_delete i m
  | deleteMultiple f m => exact iw_deleteMultiple f m
  | list st m d => exact iw_discard (iw_list st m d)
  | process u => exact iw_process u
  | send d t f => exact iw_discard (iw_send d t f)
  | sendWait d t f e du => cases h
  | ussd x du => cases h
  | ussdReply u x du => cases h
  | ussdCancel u => simp only [Op.run]; unfold Ussd.cancel; idles
  | dial n t cb du => cases h
  | answer i => exact iw_answer i
  | hangup i => exact iw_hangup i
  | dtmf i t => exact iw_dtmf i t

/-! ### Methods that wait -/

theorem sameWaits_idle {a b : St} (h : SameWaits a b) : (Idle a ↔ Idle b) ∧ (a.ussdSessionEvent = none ↔ b.ussdSessionEvent = none) ∧
    (a.smsStatusReportEvent = none ↔ b.smsStatusReportEvent = none) ∧ (a.dialEvent = none ↔ b.dialEvent = none) := by
  obtain ⟨-, h⟩ := h
  simp only [waits, Prod.mk.injEq] at h
  obtain ⟨h1, h2, h3⟩ := h
  have key : ∀ {x y : Option Bool}, y.isSome = x.isSome → (x = none ↔ y = none) := by
    intro x y h; cases x <;> cases y <;> simp_all
  exact ⟨by unfold Idle; rw [key h1, key h2, key h3], key h1, key h2, key h3⟩

theorem idle_ussd (x : PyStr) (du : List Event) {s : St} (h : Idle s) : Idle (sendUssd x du env s).2 := by
  refine ⟨C44_not_awaited _ _ _, ?_⟩
  unfold sendUssd
  simp only [run_bind, run_modify, M.except]
  have h1 := sameWaits_idle ((iw_write (env := env) (data := cusdCmd x) (term := [13]) (pe := true)).run { s with ussdSessionEvent := some false })
  cases hw : write (cusdCmd x) true [13] env { s with ussdSessionEvent := some false } with
  | mk r s1 =>
    rw [hw] at h1
    have k1 : s1.smsStatusReportEvent = none := h1.2.2.1.1 h.2.1
    have k2 : s1.dialEvent = none := h1.2.2.2.1 h.2.2
    cases r with
    | error e => exact ⟨k1, k2⟩
    | ok ls =>
      dsimp only
      split
      · simp only [run_bind, run_modify, run_ofExcept]
        cases parseCusdResponse ls <;> exact ⟨k1, k2⟩
      · simp only [run_bind, run_modify]
        have h2 := sameWaits_idle ((iw_await (env := env) (fun s => s.ussdSessionEvent = some true) du).run s1)
        cases ha : awaitEvent (fun s => s.ussdSessionEvent = some true) du env s1 with
        | mk r2 s2 =>
          rw [ha] at h2
          have k3 : s2.smsStatusReportEvent = none := h2.2.2.1.1 k1
          have k4 : s2.dialEvent = none := h2.2.2.2.1 k2
          cases r2 with
          | error e => exact ⟨k3, k4⟩
          | ok b => cases b <;> exact ⟨k3, k4⟩

theorem idle_sendWait [PyUnicode] (d t : PyStr) (f : Bool) (e du : List Event) {s : St} (h : Idle s) : Idle (sendSmsWait d t f e du env s).2 := by
  unfold sendSmsWait
  rw [run_bind]
  have h1 := sameWaits_idle ((iw_send (env := env) d t f).run s)
  cases hs : sendSms d t f env s with
  | mk r s1 =>
    rw [hs] at h1
    have k1 : Idle s1 := h1.1.1 h
    cases r with
    | error e => exact k1
    | ok i =>
      dsimp only
      rw [run_bind]
      have h2 := sameWaits_idle ((iw_await (env := env) (fun _ => false) e).run s1)
      cases ha : awaitEvent (fun _ => false) e env s1 with
      | mk r2 s2 =>
        rw [ha] at h2
        have k2 : Idle s2 := h2.1.1 k1
        cases r2 with
        | error e => exact k2
        | ok _ =>
          dsimp only
          simp only [run_bind, run_modify]
          have h3 := sameWaits_idle ((iw_await (env := env) (fun s => s.smsStatusReportEvent = some true) du).run { s2 with smsStatusReportEvent := some false })
          cases hb : awaitEvent (fun s => s.smsStatusReportEvent = some true) du env { s2 with smsStatusReportEvent := some false } with
          | mk r3 s3 =>
            rw [hb] at h3
            have k3 : s3.ussdSessionEvent = none := h3.2.1.1 k2.1
            have k4 : s3.dialEvent = none := h3.2.2.2.1 k2.2.2
            cases r3 with
            | error e => exact absurd (congrArg Prod.fst hb) (awaitEvent_ok _ _ _ _)
            | ok b => cases b <;> exact ⟨k3, rfl, k4⟩

theorem idle_dial (n : PyStr) (t : Nat) (cb : Bool) (du : List Event) {s : St} (h : Idle s) : Idle (dial n t cb du env s).2 := by
  unfold dial
  rw [run_bind, run_get]
  dsimp only
  split
  · rw [run_bind, run_modify]
    dsimp only
    rw [run_bind]
    have h1 := sameWaits_idle ((iw_writeAtd (env := env) n).run { s with dialEvent := some false })
    unfold M.except
    cases hw : writeAtd n env { s with dialEvent := some false } with
    | mk r s1 =>
      rw [hw] at h1
      have k1 : s1.ussdSessionEvent = none := h1.2.1.1 h.1
      have k2 : s1.smsStatusReportEvent = none := h1.2.2.1.1 h.2.1
      cases r with
      | error e => exact ⟨k1, k2, rfl⟩
      | ok _ =>
        dsimp only
        have rest : ∀ s2 : St, s2.ussdSessionEvent = none → s2.smsStatusReportEvent = none → Idle ((do
            let ok ← awaitEvent (fun s => s.dialEvent = some true) du
            modify fun s => { s with dialEvent := none }
            if ok then do
              let s ← get
              match s.dialResponse with
              | none => raise .typeError
              | some (callId, callType) =>
                registerCall { incoming := false, id := callId, type := some callType, number := some n, callback := cb }
            else raise (.timeout none) : M Nat) env s2).2 := by
          intro s2 j1 j2
          rw [run_bind]
          have h2 := sameWaits_idle ((iw_await (env := env) (fun s => s.dialEvent = some true) du).run s2)
          cases ha : awaitEvent (fun s => s.dialEvent = some true) du env s2 with
          | mk r3 s3 =>
            rw [ha] at h2
            have k3 : s3.ussdSessionEvent = none := h2.2.1.1 j1
            have k4 : s3.smsStatusReportEvent = none := h2.2.2.1.1 j2
            cases r3 with
            | error e => exact absurd (congrArg Prod.fst ha) (awaitEvent_ok _ _ _ _)
            | ok b =>
              dsimp only
              rw [run_bind, run_modify]
              dsimp only
              cases b with
              | false => exact ⟨k3, k4, rfl⟩
              | true =>
                simp only [if_true, run_bind, run_get]
                cases s3.dialResponse with
                | none => exact ⟨k3, k4, rfl⟩
                | some p => exact ⟨k3, k4, rfl⟩
        split
        · exact rest _ k1 k2
        · exact rest _ k1 k2
  · exact (sameWaits_idle ((Steps.bind frame_pre (iw_writeAtd (env := env) n) fun _ => iw_registerNext _).run s)).1.1 h

theorem idle_op [PyUnicode] (op : Op) {s : St} (h : Idle s) : Idle (op.run env s).2 := by
  by_cases hw : Waiting op = false
  · exact (sameWaits_idle ((iw_op hw).run s)).1.1 h
  · have hd : ∀ {α : Type} {m : M α}, Idle (m env s).2 → Idle (discard m env s).2 := by
      intro α m hm
      unfold discard
      rw [run_bind]
      cases he : m env s with
      | mk r s1 => rw [he] at hm; cases r <;> exact hm
    cases op with
    | sendWait d t f e du => exact hd (idle_sendWait d t f e du h)
    | ussd x du => exact hd (idle_ussd x du h)
    | ussdReply u x du =>
      refine hd ?_
      unfold Ussd.reply
      split
      · exact idle_ussd x du h
      · exact h
    | dial n t cb du => exact hd (idle_dial n t cb du h)
    | _ => exact absurd rfl hw

end Gsm
