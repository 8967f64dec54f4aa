import Verif.Model.Several
import Verif.Lemmas.ModemSteps
/-! # Programs that do not look at the shared attributes -/
namespace Gsm
open M

/-- Somebody else has switched on `a` and `h`. -/
def withShared (a h : Bool) (s : St) : St := { s with dtmfSupport := a || s.dtmfSupport, dtmfHuawei := h || s.dtmfHuawei }

/-- It makes no difference whether `t` happens before or after. -/
structure Commutes {α : Type} (t : St → St) (m : M α) : Prop where
  run : ∀ env s, m env (t s) = ((m env s).1, t (m env s).2)

variable {α β : Type} {t : St → St}

theorem Commutes.pure (a : α) : Commutes t (pure a : M α) := ⟨fun _ _ => rfl⟩
theorem Commutes.raise (e : PyErr) : Commutes t (M.raise e : M α) := ⟨fun _ _ => rfl⟩
theorem Commutes.ofExcept (e : Except PyErr α) : Commutes t (M.ofExcept e) := by
  cases e with
  | ok a => exact .pure a
  | error e => exact .raise e
theorem Commutes.firstLine (ls : List PyStr) : Commutes t (firstLine ls) := .ofExcept _
theorem Commutes.modify {f : St → St} (h : ∀ s, f (t s) = t (f s)) : Commutes t (M.modify f) := ⟨fun _ s => by
  show (Except.ok (), f (t s)) = (Except.ok (), t (f s)); rw [h]⟩
theorem Commutes.bind {m : M α} {f : α → M β} (hm : Commutes t m) (hf : ∀ a, Commutes t (f a)) : Commutes t (m >>= f) := by
  refine ⟨fun env s => ?_⟩
  show (match m env (t s) with | (.ok a, s) => f a env s | (.error e, s) => (.error e, s)) =
    ((match m env s with | (.ok a, s) => f a env s | (.error e, s) => (.error e, s)).1, t (match m env s with | (.ok a, s) => f a env s | (.error e, s) => (.error e, s)).2)
  rw [hm.run]
  obtain ⟨r, s'⟩ := m env s
  cases r with
  | ok a => exact (hf a).run env s'
  | error e => rfl
theorem Commutes.get {f : St → M β} (h : ∀ s, f (t s) = f s) (hf : ∀ s, Commutes t (f s)) : Commutes t (M.get >>= f) :=
  ⟨fun env s => by show f (t s) env (t s) = ((f s env s).1, t (f s env s).2); rw [h]; exact (hf s).run env s⟩
theorem Commutes.except {m : M α} {p : PyErr → Bool} {h : PyErr → M α} (hm : Commutes t m) (hh : ∀ e, Commutes t (h e)) :
    Commutes t (M.except m p h) := by
  refine ⟨fun env s => ?_⟩
  unfold M.except
  rw [hm.run]
  obtain ⟨r, s'⟩ := m env s
  cases r with
  | ok a => rfl
  | error e =>
    dsimp only
    split
    · exact (hh e).run env s'
    · rfl
theorem Commutes.tryCommand {m : M α} (hm : Commutes t m) : Commutes t (M.tryCommand m) :=
  .except (.bind hm fun _ => .pure _) fun _ => .pure _

variable {a h : Bool}

theorem shared_writeN {data term : PyStr} {pe : Bool} : ∀ depth, Commutes (withShared a h) (writeN depth data pe term)
  | 0 => .raise _
  | depth + 1 => by
    refine ⟨fun env s => ?_⟩
    have ih := shared_writeN (data := data) (term := term) (pe := pe) depth
    have h1 : (withShared a h s).log = s.log := rfl
    simp only [writeN, h1]
    split
    · rfl
    · split
      · rfl
      · split
        · split
          · rfl
          · rfl
          · have h2 := ih.run env { s with log := (data ++ term) :: s.log, writeWait := s.writeWait + 2 }
            have h3 : ({ withShared a h s with log := (data ++ term) :: s.log, writeWait := (withShared a h s).writeWait + 2 } : St) =
              withShared a h { s with log := (data ++ term) :: s.log, writeWait := s.writeWait + 2 } := rfl
            rw [h3, h2]
            generalize writeN depth data pe term env { s with log := (data ++ term) :: s.log, writeWait := s.writeWait + 2 } = r
            obtain ⟨_ | _, _⟩ := r <;> rfl
        · rfl

theorem shared_write (data term : PyStr) (pe : Bool) : Commutes (withShared a h) (write data pe term) :=
  ⟨fun env s => (shared_writeN env.depth).run env s⟩
theorem shared_writeNoWait (data : PyStr) : Commutes (withShared a h) (writeNoWait data) := .modify fun _ => rfl

/-- Decomposes a program. -/
macro "commutes" : tactic => `(tactic| repeat' first
    | (with_reducible exact Commutes.pure _)
    | (with_reducible exact Commutes.raise _)
    | (with_reducible exact Commutes.ofExcept _)
    | (with_reducible exact Commutes.firstLine _)
    | (with_reducible exact shared_write _ _ _)
    | (with_reducible exact shared_writeNoWait _)
    | assumption
    | (with_reducible refine Commutes.get (fun _ => rfl) ?_)
    | (with_reducible refine Commutes.bind ?_ ?_)
    | (with_reducible refine Commutes.except ?_ ?_)
    | (with_reducible refine Commutes.tryCommand ?_)
    | (with_reducible exact Commutes.modify fun _ => rfl)
    | (with_reducible dsimp only)
    | intro _
    | split)

theorem shared_signalStrength : Commutes (withShared a h) signalStrength := by unfold signalStrength; commutes
theorem shared_manufacturer : Commutes (withShared a h) manufacturer := by unfold manufacturer; commutes
theorem shared_model : Commutes (withShared a h) model := by unfold model; commutes
theorem shared_revision : Commutes (withShared a h) revision := by unfold revision; commutes
theorem shared_imei : Commutes (withShared a h) imei := by unfold imei; commutes
theorem shared_imsi : Commutes (withShared a h) imsi := by unfold imsi; commutes
theorem shared_networkName : Commutes (withShared a h) networkName := by unfold networkName; commutes
theorem shared_supportedCommands : Commutes (withShared a h) supportedCommands := by unfold supportedCommands; commutes
theorem shared_textMode (v : Bool) : Commutes (withShared a h) (setSmsTextMode v) := by unfold setSmsTextMode; commutes
theorem shared_memory (m w : Option PyStr) : Commutes (withShared a h) (setSmsMemory m w) := by unfold setSmsMemory; commutes
theorem shared_getSmsc : Commutes (withShared a h) getSmsc := by unfold getSmsc; commutes
theorem shared_setSmsc (n : Option PyStr) : Commutes (withShared a h) (setSmsc n) := by unfold setSmsc; commutes

/-! ### connect -/

theorem shared_unlock (pin : Option PyStr) : Commutes (withShared a h) (unlockSim pin) := by unfold unlockSim; commutes
theorem shared_rest (pin : Option PyStr) (b : Bool) : Commutes (withShared a h) (connectRest pin b) := by
  have := shared_unlock (a := a) (h := h) pin
  unfold connectRest; commutes
theorem shared_basics (pin : Option PyStr) : Commutes (withShared a h) (connectBasics pin) := by
  have := shared_unlock (a := a) (h := h) pin
  have h1 := shared_rest (a := a) (h := h) pin true
  have h2 := shared_rest (a := a) (h := h) pin false
  unfold connectBasics; commutes
theorem shared_identifyCommands (cs : List PyStr) : Commutes (withShared a h) (identifyCommands cs) := by
  unfold identifyCommands; commutes
  all_goals exact .modify fun s => by simp [withShared]
theorem shared_identifyWind (n : Nat) : Commutes (withShared a h) (identifyWind n) := by unfold identifyWind; commutes
theorem shared_identifyOther (n : Nat) : Commutes (withShared a h) (identifyOther n) := by
  have := shared_manufacturer (a := a) (h := h)
  unfold identifyOther; commutes
theorem shared_identify : Commutes (withShared a h) connectIdentify := by
  have h1 := shared_supportedCommands (a := a) (h := h)
  have h2 := fun cs => shared_identifyCommands (a := a) (h := h) cs
  have h3 := fun n => shared_identifyWind (a := a) (h := h) n
  have h4 := fun n => shared_identifyOther (a := a) (h := h) n
  unfold connectIdentify; commutes
  all_goals first | exact h2 _ | exact h3 _ | exact h4 _
theorem shared_callTable (n : Nat) (cs : Option (List PyStr)) : Commutes (withShared a h) (connectCallTable n cs) := by
  refine .modify fun s => ?_
  split
  · simp [withShared]
  · split
    · simp [withShared, Bool.or_assoc]
    · split
      · simp [withShared, Bool.or_assoc]
      · rfl
theorem shared_connectSms : Commutes (withShared a h) connectSms := by
  have h1 := shared_getSmsc (a := a) (h := h)
  have h2 := fun n => shared_setSmsc (a := a) (h := h) n
  unfold connectSms; commutes
  all_goals exact h2 _
theorem shared_connectMemory : Commutes (withShared a h) connectMemory := by unfold connectMemory; commutes
theorem shared_notifications : Commutes (withShared a h) connectNotifications := by unfold connectNotifications; commutes
theorem shared_connect (pin : Option PyStr) : Commutes (withShared a h) (connect pin) := by
  have h1 := shared_basics (a := a) (h := h) pin
  have h2 := shared_identify (a := a) (h := h)
  have h3 := fun n cs => shared_callTable (a := a) (h := h) n cs
  have h4 := shared_connectSms (a := a) (h := h)
  have h5 := shared_connectMemory (a := a) (h := h)
  have h6 := shared_notifications (a := a) (h := h)
  unfold connect; commutes
  all_goals exact h3 _ _

/-! ### Messages -/

theorem shared_coverage : ∀ (rounds : Nat) (b : Bool), Commutes (withShared a h) (coverageLoop rounds b)
  | 0, _ => .raise _
  | rounds + 1, true => by
    have h1 := shared_coverage rounds true
    have h2 := shared_coverage rounds false
    have h3 := shared_signalStrength (a := a) (h := h)
    unfold coverageLoop; commutes
  | rounds + 1, false => by
    have h1 := shared_coverage rounds true
    have h2 := shared_coverage rounds false
    have h3 := shared_signalStrength (a := a) (h := h)
    unfold coverageLoop; commutes
theorem shared_read (i : PyStr) (m : Option PyStr) : Commutes (withShared a h) (readStoredSms i m) := by
  have := shared_memory (a := a) (h := h) m none
  unfold readStoredSms; commutes
theorem shared_delete (i : PyStr) (m : Option PyStr) : Commutes (withShared a h) (deleteStoredSms i m) := by
  have := shared_memory (a := a) (h := h) m none
  unfold deleteStoredSms; commutes
theorem shared_deleteMultiple (f : Int) (m : Option PyStr) : Commutes (withShared a h) (deleteMultipleStoredSms f m) := by
  have := shared_memory (a := a) (h := h) m none
  unfold deleteMultipleStoredSms; commutes
theorem shared_deleteAll : ∀ is : List Int, Commutes (withShared a h) (deleteAll is)
  | [] => .pure _
  | _ :: is => .bind (shared_delete _ _) fun _ => shared_deleteAll is
theorem shared_list (st : Int) (m : Option PyStr) (d : Bool) : Commutes (withShared a h) (listStoredSms st m d) := by
  have h1 := shared_memory (a := a) (h := h) m none
  have h2 : ∀ l, Commutes (withShared a h) (deleteListed st d l) := by
    intro l
    have h3 := shared_deleteMultiple (a := a) (h := h) 4 none
    have h4 : Commutes (withShared a h) (deleteSet l) := ⟨fun env s => (shared_deleteAll _).run env s⟩
    unfold deleteListed; commutes
  unfold listStoredSms; commutes
  all_goals exact h2 _
theorem shared_callback (c : Callback) : Commutes (withShared a h) (callback c) := .modify fun _ => rfl
theorem shared_callbackAll : ∀ ms : List Msg, Commutes (withShared a h) (callbackAll ms)
  | [] => .pure _
  | _ :: ms => .bind (shared_callback _) fun _ => shared_callbackAll ms
theorem shared_process (u : Bool) : Commutes (withShared a h) (processStoredSms u) := by
  have h1 := fun st => shared_list (a := a) (h := h) st none true
  have h2 := fun ms => shared_callbackAll (a := a) (h := h) ms
  unfold processStoredSms; commutes
  all_goals first | exact h1 _ | exact h2 _
theorem shared_received (l : PyStr) : Commutes (withShared a h) (handleSmsReceived l) := by
  have h1 := fun i m => shared_read (a := a) (h := h) i m
  have h2 := fun i m => shared_delete (a := a) (h := h) i m
  have h3 := fun c => shared_callback (a := a) (h := h) c
  unfold handleSmsReceived; commutes
  all_goals first | exact h1 _ _ | exact h2 _ _ | exact h3 _
theorem shared_statusReport (l : PyStr) : Commutes (withShared a h) (handleSmsStatusReport l) := by
  have h1 := fun i m => shared_read (a := a) (h := h) i m
  have h2 := fun i m => shared_delete (a := a) (h := h) i m
  have h3 := fun c => shared_callback (a := a) (h := h) c
  have h4 : ∀ m r d, Commutes (withShared a h) (updateSent m r d) := fun _ _ _ => .modify fun _ => rfl
  unfold handleSmsStatusReport; commutes
  all_goals first | exact h1 _ _ | exact h2 _ _ | exact h3 _ | exact h4 _ _ _
theorem shared_sendPdus : ∀ (ps : List Pdu) (r : Option PyStr), Commutes (withShared a h) (sendPdus ps r)
  | [], _ => .pure _
  | _ :: ps, _ => .bind (shared_write _ _ _) fun _ => .bind (shared_write _ _ _) fun _ => shared_sendPdus ps _
theorem shared_send [PyUnicode] (d x : PyStr) (f : Bool) : Commutes (withShared a h) (sendSms d x f) := by
  have h1 := fun ps r => shared_sendPdus (a := a) (h := h) ps r
  have h2 : ∀ d x r, Commutes (withShared a h) (recordSent d x r) := fun _ _ _ => .modify fun _ => rfl
  unfold sendSms; commutes
  all_goals first | exact h1 _ _ | exact h2 _ _ _

/-! ### Calls -/

theorem shared_handleUssd (ls : List PyStr) : Commutes (withShared a h) (handleUssd ls) := by unfold handleUssd; commutes
theorem shared_setAnswered (i : Nat) (v : Bool) : Commutes (withShared a h) (setAnswered i v) := by
  have h1 := fun c => shared_callback (a := a) (h := h) c
  unfold setAnswered; commutes
  all_goals exact h1 _
theorem shared_registerCall (c : CallObj) : Commutes (withShared a h) (registerCall c) := ⟨fun _ _ => rfl⟩
theorem shared_registerNext (c : CallObj) : Commutes (withShared a h) (registerNext c) := ⟨fun _ _ => rfl⟩
theorem shared_ringLoop (n : Option PyStr) : ∀ (l : List (Int × Nat)) (c : Option Nat), Commutes (withShared a h) (ringLoop n l c)
  | [], c => .pure _
  | _ :: l, c => by
    have h1 := fun c => shared_ringLoop n l c
    unfold ringLoop; commutes
    all_goals exact h1 _
theorem shared_ringType (l : PyStr) : Commutes (withShared a h) (ringType l) := by unfold ringType; commutes
theorem shared_callTypeOf (o : Option PyStr) : Commutes (withShared a h) (callTypeOf o) := by cases o <;> (unfold callTypeOf; commutes)
theorem shared_incoming (ls : List PyStr) : Commutes (withShared a h) (handleIncomingCall ls) := by
  have h1 := fun l => shared_ringType (a := a) (h := h) l
  have h2 := fun n l c => shared_ringLoop (a := a) (h := h) n l c
  have h3 := fun o => shared_callTypeOf (a := a) (h := h) o
  have h4 := fun c => shared_registerNext (a := a) (h := h) c
  have h5 := fun c => shared_callback (a := a) (h := h) c
  unfold handleIncomingCall; commutes
  all_goals first | exact h1 _ | exact h2 _ _ _ | exact h3 _ | exact h4 _ | exact h5 _
theorem shared_initiated (i k : Int) : Commutes (withShared a h) (handleCallInitiated i k) := by unfold handleCallInitiated; commutes
theorem shared_answered (o : Option Int) : Commutes (withShared a h) (handleCallAnswered o) := by
  have h1 := fun i v => shared_setAnswered (a := a) (h := h) i v
  cases o <;> (unfold handleCallAnswered; commutes)
  all_goals exact h1 _ _
theorem shared_ended (o : Option Int) (x y : Bool) : Commutes (withShared a h) (handleCallEnded o x y) := by
  have h1 := fun i v => shared_setAnswered (a := a) (h := h) i v
  unfold handleCallEnded; commutes
  all_goals exact h1 _ _
theorem shared_runCallHandler (k : CallHandler) (g : List PyStr) : Commutes (withShared a h) (runCallHandler k g) := by
  have h1 := fun i k => shared_initiated (a := a) (h := h) i k
  have h2 := fun o => shared_answered (a := a) (h := h) o
  have h3 := fun o x y => shared_ended (a := a) (h := h) o x y
  cases k <;> (unfold runCallHandler; commutes)
  all_goals first | exact h1 _ _ | exact h2 _ | exact h3 _ _ _
theorem shared_dispatchLoop (all : List PyStr) : ∀ ls : List PyStr, Commutes (withShared a h) (dispatchLoop all ls)
  | [] => .pure _
  | _ :: ls => by
    have h0 := shared_dispatchLoop all ls
    have h1 := fun l => shared_incoming (a := a) (h := h) l
    have h2 := fun l => shared_received (a := a) (h := h) l
    have h3 := fun l => shared_handleUssd (a := a) (h := h) l
    have h4 := fun l => shared_statusReport (a := a) (h := h) l
    have h5 := fun k g => shared_runCallHandler (a := a) (h := h) k g
    unfold dispatchLoop; commutes
    all_goals first | exact h1 _ | exact h2 _ | exact h3 _ | exact h4 _ | exact h5 _ _
theorem shared_clccQuery : Commutes (withShared a h) clccQuery := by unfold clccQuery; commutes
theorem shared_pollStep (p : Poller) (seen : Option (Int × Int × Int × Int)) : Commutes (withShared a h) (pollStep p seen) := by
  have h1 := fun i k => shared_initiated (a := a) (h := h) i k
  have h2 := fun o => shared_answered (a := a) (h := h) o
  have h3 := fun o x y => shared_ended (a := a) (h := h) o x y
  unfold pollStep; commutes
  all_goals first | exact h1 _ _ | exact h2 _ | exact h3 _ _ _
theorem shared_pollRound (p : Poller) : Commutes (withShared a h) (pollRound p) := by
  have h1 := shared_clccQuery (a := a) (h := h)
  have h2 := fun p s => shared_pollStep (a := a) (h := h) p s
  unfold pollRound; commutes
  all_goals exact h2 _ _
theorem shared_event (e : Event) : Commutes (withShared a h) e.run := by
  refine ⟨fun env s => ?_⟩
  cases e with
  | notify ls =>
    show (_, (handleNotification ls env (withShared a h s)).2) = (_, withShared a h (handleNotification ls env s).2)
    rw [show handleNotification ls env (withShared a h s) = _ from (shared_dispatchLoop ls ls).run env s]
    rfl
  | poll k =>
    have hp : (withShared a h s).pollers = s.pollers := rfl
    simp only [Event.run, hp]
    split
    · rfl
    · next p _ =>
      rw [(shared_pollRound p).run env s]
      generalize pollRound p env s = r
      obtain ⟨_ | _, _⟩ := r <;> rfl
theorem shared_await {f : St → Bool} (hf : ∀ s, f (withShared a h s) = f s) : ∀ es : List Event, Commutes (withShared a h) (awaitEvent f es)
  | [] => ⟨fun env s => by show (Except.ok (f (withShared a h s)), withShared a h s) = (Except.ok (f s), withShared a h s); rw [hf]⟩
  | e :: es => by
    have h1 := shared_event (a := a) (h := h) e
    have h2 := shared_await hf es
    refine .get (fun s => ?_) fun s => ?_
    · rw [hf]
    · commutes
theorem shared_sendWait [PyUnicode] (d x : PyStr) (f : Bool) (e du : List Event) : Commutes (withShared a h) (sendSmsWait d x f e du) := by
  have h1 := shared_send (a := a) (h := h) d x f
  have h2 := shared_await (a := a) (h := h) (f := fun _ => false) (fun _ => rfl) e
  have h3 := shared_await (a := a) (h := h) (f := fun s => s.smsStatusReportEvent = some true) (fun _ => rfl) du
  unfold sendSmsWait; commutes
theorem shared_sendUssd (x : PyStr) (du : List Event) : Commutes (withShared a h) (sendUssd x du) := by
  have h3 := shared_await (a := a) (h := h) (f := fun s => s.ussdSessionEvent = some true) (fun _ => rfl) du
  unfold sendUssd; commutes
theorem shared_reply (u : Ussd) (x : PyStr) (du : List Event) : Commutes (withShared a h) (u.reply x du) := by
  have := shared_sendUssd (a := a) (h := h) x du
  unfold Ussd.reply; commutes
theorem shared_cancel (u : Ussd) : Commutes (withShared a h) u.cancel := by unfold Ussd.cancel; commutes
theorem shared_writeAtd (n : PyStr) : Commutes (withShared a h) (writeAtd n) := by unfold writeAtd; commutes
theorem shared_dial (n : PyStr) (x : Nat) (cb : Bool) (du : List Event) : Commutes (withShared a h) (dial n x cb du) := by
  have h1 := shared_writeAtd (a := a) (h := h) n
  have h2 := fun c => shared_registerNext (a := a) (h := h) c
  have h3 := shared_await (a := a) (h := h) (f := fun s => s.dialEvent = some true) (fun _ => rfl) du
  have h4 := fun c => shared_registerCall (a := a) (h := h) c
  unfold dial; commutes
  all_goals first | exact h2 _ | exact h4 _
theorem shared_hangup (i : Nat) : Commutes (withShared a h) (hangup i) := by
  have h1 := fun i v => shared_setAnswered (a := a) (h := h) i v
  unfold hangup stopRinging hangupActive; commutes
  all_goals exact h1 _ _
theorem shared_answer (i : Nat) : Commutes (withShared a h) (answer i) := by
  have h1 := fun i v => shared_setAnswered (a := a) (h := h) i v
  unfold answer; commutes
  all_goals exact h1 _ _

/-- Tones do not depend on the attribute that tells whether they can be sent. -/
theorem shared_dtmf (i : Nat) (x : PyStr) : Commutes (withShared a false) (sendDtmfTone i x) := by
  unfold sendDtmfTone
  refine .get (fun s => ?_) fun s => ?_
  · have h1 : ∀ c, dtmfBase (withShared a false s) c = dtmfBase s c := fun c => by simp [dtmfBase, withShared]
    simp only [h1]
    rfl
  · commutes

/-- Tones do not change the attributes. -/
theorem dtmf_keeps (env : Env) (i : Nat) (x : PyStr) (s : St) : (sendDtmfTone i x env s).2.dtmfSupport = s.dtmfSupport ∧ (sendDtmfTone i x env s).2.dtmfHuawei = s.dtmfHuawei := by
  have hp : IsPre fun a b : St => b.dtmfSupport = a.dtmfSupport ∧ b.dtmfHuawei = a.dtmfHuawei :=
    ⟨fun _ => ⟨rfl, rfl⟩, fun h1 h2 => ⟨h2.1.trans h1.1, h2.2.trans h1.2⟩⟩
  have : Steps env (fun a b : St => b.dtmfSupport = a.dtmfSupport ∧ b.dtmfHuawei = a.dtmfHuawei) (sendDtmfTone i x) := by
    unfold sendDtmfTone
    refine Steps.bind hp (Steps.get hp) fun s => ?_
    split
    · exact Steps.pure hp _
    · split
      · exact Steps.bind hp (Steps.ofExcept hp _) fun _ => Steps.except hp (Steps.bind hp (Steps.write fun _ _ _ => ⟨rfl, rfl⟩) fun _ => Steps.pure hp _) fun _ _ => Steps.raise hp _
      · exact Steps.raise hp _
  exact this.run s

/-- Is it the sending of tones? -/
def Deed.tones : Deed → Bool
  | .op (.dtmf _ _) => true
  | _ => false

theorem shared_deed [PyUnicode] (d : Deed) (hd : d.tones = false ∨ h = false) : Commutes (withShared a h) d.run := by
  have hdis : ∀ {α : Type} {m : M α}, Commutes (withShared a h) m → Commutes (withShared a h) (discard m) := by
    intro α m h
    unfold discard; commutes
  cases d with
  | connect pin => exact shared_connect pin
  | close => exact .modify fun _ => rfl
  | op o =>
    cases o with
    | event e => exact shared_event e
    | setTextMode v => exact shared_textMode v
    | setSmsc n => exact shared_setSmsc n
    | getSmsc => exact hdis shared_getSmsc
    | signalStrength => exact hdis shared_signalStrength
    | manufacturer => exact hdis shared_manufacturer
    | model => exact hdis shared_model
    | revision => exact hdis shared_revision
    | imei => exact hdis shared_imei
    | imsi => exact hdis shared_imsi
    | networkName => exact hdis shared_networkName
    | supportedCommands => exact hdis shared_supportedCommands
    | waitForNetworkCoverage r => exact hdis (shared_coverage r true)
    | read i m => exact hdis (shared_read i m)
    | delete i m => exact shared_delete i m
    | deleteMultiple f m => exact shared_deleteMultiple f m
    | list st m d => exact hdis (shared_list st m d)
    | process u => exact shared_process u
    | send d t f => exact hdis (shared_send d t f)
    | sendWait d t f e du => exact hdis (shared_sendWait d t f e du)
    | ussd s du => exact hdis (shared_sendUssd s du)
    | ussdReply u s du => exact hdis (shared_reply u s du)
    | ussdCancel u => exact shared_cancel u
    | dial n t cb du => exact hdis (shared_dial n t cb du)
    | answer c => exact shared_answer c
    | hangup c => exact shared_hangup c
    | dtmf c t =>
      rcases hd with hd | rfl
      · cases hd
      · exact shared_dtmf c t

end Gsm
