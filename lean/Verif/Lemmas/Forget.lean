import Verif.Spec.Forget
import Verif.Lemmas.Several
import Verif.Lemmas.Calls
import Verif.Props.ModemReference
/-! # No program looks at the messages that were sent -/
namespace Gsm
open M Spec

/-- The relation that is kept. -/
def AlikeBut (F : List Nat) (a b : St) : Prop := SameBut F a b ∧ OneEntry a

/-- It makes no difference whether messages of `F` have been forgotten. -/
structure Forgets {α : Type} (F : List Nat) (m : M α) : Prop where
  run : ∀ env a b, AlikeBut F a b → (m env a).1 = (m env b).1 ∧ AlikeBut F (m env a).2 (m env b).2

variable {α β : Type} {F : List Nat}

theorem AlikeBut.cases {a b : St} (h : AlikeBut F a b) : ∃ X Y, X.length = a.sent.length ∧ b = { a with sent := X, sentSms := Y } := by
  refine ⟨b.sent, b.sentSms, by simpa using (congrArg List.length h.1.messages).symm, ?_⟩
  have := h.1.rest
  cases a; cases b
  simp only [St.mk.injEq] at this ⊢
  simp [this]

theorem AlikeBut.of {a b : St} (h : AlikeBut F a b) {f : St → St} (hf : ∀ s X Y, f { s with sent := X, sentSms := Y } = { f s with sent := X, sentSms := Y }) :
    AlikeBut F (f a) (f b) := by
  have h0 : ∀ s, (f s).sent = s.sent ∧ (f s).sentSms = s.sentSms := fun s => by
    have := hf s s.sent s.sentSms
    exact ⟨(congrArg St.sent this : (f s).sent = _), (congrArg St.sentSms this : (f s).sentSms = _)⟩
  obtain ⟨X, Y, -, hb⟩ := h.cases
  refine ⟨⟨?_, ?_, ?_, ?_⟩, ?_⟩
  · rw [hb]; have := hf a X Y; rw [this]
  · rw [(h0 a).1, (h0 b).1]; exact h.1.messages
  · rw [(h0 a).1, (h0 b).1]; exact h.1.reports
  · rw [(h0 a).2, (h0 b).2]; exact h.1.entries
  · unfold OneEntry; rw [(h0 a).2]; exact h.2

theorem Forgets.pure (a : α) : Forgets F (pure a : M α) := ⟨fun _ _ _ h => ⟨rfl, h⟩⟩
theorem Forgets.raise (e : PyErr) : Forgets F (M.raise e : M α) := ⟨fun _ _ _ h => ⟨rfl, h⟩⟩
theorem Forgets.ofExcept (e : Except PyErr α) : Forgets F (M.ofExcept e) := by
  cases e with
  | ok a => exact .pure a
  | error e => exact .raise e
theorem Forgets.firstLine (ls : List PyStr) : Forgets F (firstLine ls) := .ofExcept _
theorem Forgets.change {f : St → St} (h : ∀ a b, AlikeBut F a b → AlikeBut F (f a) (f b)) : Forgets F (M.modify f) := ⟨fun _ a b hab => ⟨rfl, h a b hab⟩⟩
theorem Forgets.modify {f : St → St} (h : ∀ s X Y, f { s with sent := X, sentSms := Y } = { f s with sent := X, sentSms := Y }) : Forgets F (M.modify f) :=
  .change fun _ _ hab => hab.of h
theorem Forgets.bind {m : M α} {f : α → M β} (hm : Forgets F m) (hf : ∀ a, Forgets F (f a)) : Forgets F (m >>= f) := by
  refine ⟨fun env a b hab => ?_⟩
  have h1 := hm.run env a b hab
  rw [run_bind, run_bind]
  generalize m env a = x at h1 ⊢
  generalize m env b = y at h1 ⊢
  obtain ⟨r, a'⟩ := x
  obtain ⟨r', b'⟩ := y
  obtain ⟨h0, h2⟩ := h1
  dsimp only at h0 h2
  subst h0
  cases r with
  | ok x => exact (hf x).run env a' b' h2
  | error e => exact ⟨rfl, h2⟩
theorem Forgets.get {f : St → M β} (h : ∀ s X Y, X.length = s.sent.length → f { s with sent := X, sentSms := Y } = f s) (hf : ∀ s, Forgets F (f s)) :
    Forgets F (M.get >>= f) := ⟨fun env a b hab => by
  obtain ⟨X, Y, hX, hb⟩ := hab.cases
  have : f b = f a := by rw [hb]; exact h a X Y hX
  rw [run_bind, run_bind, run_get, run_get]
  dsimp only
  rw [this]
  exact (hf a).run env a b hab⟩
theorem Forgets.except {m : M α} {p : PyErr → Bool} {h : PyErr → M α} (hm : Forgets F m) (hh : ∀ e, Forgets F (h e)) :
    Forgets F (M.except m p h) := by
  refine ⟨fun env a b hab => ?_⟩
  have h1 := hm.run env a b hab
  unfold M.except
  generalize m env a = x at h1 ⊢
  generalize m env b = y at h1 ⊢
  obtain ⟨r, a'⟩ := x
  obtain ⟨r', b'⟩ := y
  obtain ⟨h0, h2⟩ := h1
  dsimp only at h0 h2
  subst h0
  cases r with
  | ok a => exact ⟨rfl, h2⟩
  | error e =>
    dsimp only
    split
    · exact (hh e).run env a' b' h2
    · exact ⟨rfl, h2⟩
theorem Forgets.tryCommand {m : M α} (hm : Forgets F m) : Forgets F (M.tryCommand m) :=
  .except (.bind hm fun _ => .pure _) fun _ => .pure _
/-- A program that is the same whatever the messages are. -/
theorem Forgets.blind {m : M α} (h : ∀ env s X Y, m env { s with sent := X, sentSms := Y } = ((m env s).1, { (m env s).2 with sent := X, sentSms := Y })) :
    Forgets F m := ⟨fun env a b hab => by
  obtain ⟨X, Y, hX, hb⟩ := hab.cases
  refine ⟨by rw [hb]; have := h env a X Y; rw [this], ?_⟩
  exact hab.of (f := fun s => (m env s).2) fun s X Y => by have := h env s X Y; exact congrArg Prod.snd this⟩

theorem fg_writeN {data term : PyStr} {pe : Bool} (X : List Sent) (Y : List (Int × Nat)) : ∀ depth env s,
    writeN depth data pe term env { s with sent := X, sentSms := Y } =
      ((writeN depth data pe term env s).1, { (writeN depth data pe term env s).2 with sent := X, sentSms := Y })
  | 0, _, _ => rfl
  | depth + 1, env, s => by
    have ih := fg_writeN (data := data) (term := term) (pe := pe) X Y depth
    simp only [writeN]
    split
    · rfl
    · split
      · rfl
      · split
        · split
          · rfl
          · rfl
          · have h2 := ih env { s with log := (data ++ term) :: s.log, writeWait := s.writeWait + 2 }
            dsimp only at h2
            rw [h2]
            generalize writeN depth data pe term env { s with log := (data ++ term) :: s.log, writeWait := s.writeWait + 2 } = r
            obtain ⟨_ | _, _⟩ := r <;> rfl
        · rfl

theorem fg_write (data term : PyStr) (pe : Bool) : Forgets F (write data pe term) :=
  .blind fun env s X Y => fg_writeN X Y env.depth env s
theorem fg_writeNoWait (data : PyStr) : Forgets F (writeNoWait data) := .modify fun _ _ _ => rfl

/-- Decomposes a program. -/
macro "forgets" : tactic => `(tactic| repeat' first
    | (with_reducible exact Forgets.pure _)
    | (with_reducible exact Forgets.raise _)
    | (with_reducible exact Forgets.ofExcept _)
    | (with_reducible exact Forgets.firstLine _)
    | (with_reducible exact fg_write _ _ _)
    | (with_reducible exact fg_writeNoWait _)
    | assumption
    | (with_reducible refine Forgets.get (fun _ _ _ _ => rfl) ?_)
    | (with_reducible refine Forgets.bind ?_ ?_)
    | (with_reducible refine Forgets.except ?_ ?_)
    | (with_reducible refine Forgets.tryCommand ?_)
    | (with_reducible exact Forgets.modify fun _ _ _ => rfl)
    | (with_reducible dsimp only)
    | intro _
    | split)

theorem fg_signalStrength : Forgets F signalStrength := by unfold signalStrength; forgets
theorem fg_manufacturer : Forgets F manufacturer := by unfold manufacturer; forgets
theorem fg_model : Forgets F model := by unfold model; forgets
theorem fg_revision : Forgets F revision := by unfold revision; forgets
theorem fg_imei : Forgets F imei := by unfold imei; forgets
theorem fg_imsi : Forgets F imsi := by unfold imsi; forgets
theorem fg_networkName : Forgets F networkName := by unfold networkName; forgets
theorem fg_supportedCommands : Forgets F supportedCommands := by unfold supportedCommands; forgets
theorem fg_textMode (v : Bool) : Forgets F (setSmsTextMode v) := by unfold setSmsTextMode; forgets
theorem fg_memory (m w : Option PyStr) : Forgets F (setSmsMemory m w) := by unfold setSmsMemory; forgets
theorem fg_getSmsc : Forgets F getSmsc := by unfold getSmsc; forgets
theorem fg_setSmsc (n : Option PyStr) : Forgets F (setSmsc n) := by unfold setSmsc; forgets

/-! ### connect -/

theorem fg_unlock (pin : Option PyStr) : Forgets F (unlockSim pin) := by unfold unlockSim; forgets
theorem fg_rest (pin : Option PyStr) (b : Bool) : Forgets F (connectRest pin b) := by
  have := fg_unlock (F := F) pin
  unfold connectRest; forgets
theorem fg_basics (pin : Option PyStr) : Forgets F (connectBasics pin) := by
  have := fg_unlock (F := F) pin
  have h1 := fg_rest (F := F) pin true
  have h2 := fg_rest (F := F) pin false
  unfold connectBasics; forgets
theorem fg_identifyCommands (cs : List PyStr) : Forgets F (identifyCommands cs) := by
  unfold identifyCommands; forgets
theorem fg_identifyWind (n : Nat) : Forgets F (identifyWind n) := by unfold identifyWind; forgets
theorem fg_identifyOther (n : Nat) : Forgets F (identifyOther n) := by
  have := fg_manufacturer (F := F)
  unfold identifyOther; forgets
theorem fg_identify : Forgets F connectIdentify := by
  have h1 := fg_supportedCommands (F := F)
  have h2 := fun cs => fg_identifyCommands (F := F) cs
  have h3 := fun n => fg_identifyWind (F := F) n
  have h4 := fun n => fg_identifyOther (F := F) n
  unfold connectIdentify; forgets
  all_goals first | exact h2 _ | exact h3 _ | exact h4 _
theorem fg_callTable (n : Nat) (cs : Option (List PyStr)) : Forgets F (connectCallTable n cs) := by
  refine .modify fun s X Y => ?_
  split
  · rfl
  · split
    · rfl
    · split <;> rfl
theorem fg_connectSms : Forgets F connectSms := by
  have h1 := fg_getSmsc (F := F)
  have h2 := fun n => fg_setSmsc (F := F) n
  unfold connectSms; forgets
  all_goals exact h2 _
theorem fg_connectMemory : Forgets F connectMemory := by unfold connectMemory; forgets
theorem fg_notifications : Forgets F connectNotifications := by unfold connectNotifications; forgets
theorem fg_connect (pin : Option PyStr) : Forgets F (connect pin) := by
  have h1 := fg_basics (F := F) pin
  have h2 := fg_identify (F := F)
  have h3 := fun n cs => fg_callTable (F := F) n cs
  have h4 := fg_connectSms (F := F)
  have h5 := fg_connectMemory (F := F)
  have h6 := fg_notifications (F := F)
  unfold connect; forgets
  all_goals exact h3 _ _

/-! ### Messages -/

theorem fg_coverage : ∀ (rounds : Nat) (b : Bool), Forgets F (coverageLoop rounds b)
  | 0, _ => .raise _
  | rounds + 1, true => by
    have h1 := fg_coverage rounds true
    have h2 := fg_coverage rounds false
    have h3 := fg_signalStrength (F := F)
    unfold coverageLoop; forgets
  | rounds + 1, false => by
    have h1 := fg_coverage rounds true
    have h2 := fg_coverage rounds false
    have h3 := fg_signalStrength (F := F)
    unfold coverageLoop; forgets
theorem fg_read (i : PyStr) (m : Option PyStr) : Forgets F (readStoredSms i m) := by
  have := fg_memory (F := F) m none
  unfold readStoredSms; forgets
theorem fg_delete (i : PyStr) (m : Option PyStr) : Forgets F (deleteStoredSms i m) := by
  have := fg_memory (F := F) m none
  unfold deleteStoredSms; forgets
theorem fg_deleteMultiple (f : Int) (m : Option PyStr) : Forgets F (deleteMultipleStoredSms f m) := by
  have := fg_memory (F := F) m none
  unfold deleteMultipleStoredSms; forgets
theorem fg_deleteAll : ∀ is : List Int, Forgets F (deleteAll is)
  | [] => .pure _
  | _ :: is => .bind (fg_delete _ _) fun _ => fg_deleteAll is
theorem fg_list (st : Int) (m : Option PyStr) (d : Bool) : Forgets F (listStoredSms st m d) := by
  have h1 := fg_memory (F := F) m none
  have h2 : ∀ l, Forgets F (deleteListed st d l) := by
    intro l
    have h3 := fg_deleteMultiple (F := F) 4 none
    have h4 : Forgets F (deleteSet l) := ⟨fun env a b => (fg_deleteAll _).run env a b⟩
    unfold deleteListed; forgets
  unfold listStoredSms; forgets
  all_goals exact h2 _
theorem fg_callback (c : Callback) : Forgets F (callback c) := .modify fun _ _ _ => rfl
theorem fg_callbackAll : ∀ ms : List Msg, Forgets F (callbackAll ms)
  | [] => .pure _
  | _ :: ms => .bind (fg_callback _) fun _ => fg_callbackAll ms
theorem fg_process (u : Bool) : Forgets F (processStoredSms u) := by
  have h1 := fun st => fg_list (F := F) st none true
  have h2 := fun ms => fg_callbackAll (F := F) ms
  unfold processStoredSms; forgets
  all_goals first | exact h1 _ | exact h2 _
theorem fg_received (l : PyStr) : Forgets F (handleSmsReceived l) := by
  have h1 := fun i m => fg_read (F := F) i m
  have h2 := fun i m => fg_delete (F := F) i m
  have h3 := fun c => fg_callback (F := F) c
  unfold handleSmsReceived; forgets
  all_goals first | exact h1 _ _ | exact h2 _ _ | exact h3 _
theorem AlikeBut.length {a b : St} (h : AlikeBut F a b) : a.sent.length = b.sent.length := by simpa using congrArg List.length h.1.messages
theorem fg_recordSent (d x : PyStr) (r : Int) : Forgets F (recordSent d x r) := by
  refine .change fun a b hab => ?_
  have hl := hab.length
  obtain ⟨X, Y, -, hb⟩ := hab.cases
  refine ⟨⟨?_, ?_, ?_, ?_⟩, ?_⟩
  · rw [hb]
  · simp only [List.map_append, hab.1.messages]
  · intro i hi
    have := hab.1.reports i hi
    simp only [List.getElem?_append, hl, this]
  · intro r'
    dsimp only
    rw [dictGet_set, dictGet_set, hl]
    split
    · exact .inl rfl
    · exact hab.1.entries r'
  · exact dictSet_nodup hab.2
theorem modify_unreported (l : List Sent) (i : Nat) (m : Option Msg) : (l.modify i fun x => { x with report := m }).map Unreported = l.map Unreported := by
  apply List.ext_getElem?
  intro j
  simp only [List.getElem?_map, List.getElem?_modify]
  cases l[j]? with
  | none => rfl
  | some x => by_cases h : i = j <;> simp [h, Unreported]
theorem fg_updateSent (m : Msg) (r d : Int) : Forgets F (updateSent m r d) := by
  refine .change fun a b hab => ?_
  have hl := hab.length
  obtain ⟨X, Y, -, hb⟩ := hab.cases
  refine ⟨⟨?_, ?_, ?_, hab.1.entries⟩, hab.2⟩
  · rw [hb]
  · have : ∀ s : St, (match dictGet s.sentSms r with
      | some i => s.sent.modify i fun x => { x with report := some m }
      | none => s.sent).map Unreported = s.sent.map Unreported := fun s => by
        split
        · exact modify_unreported _ _ _
        · rfl
    exact (this a).trans (hab.1.messages.trans (this b).symm)
  · intro i hi
    have h1 := hab.1.reports i hi
    dsimp only
    rcases hab.1.entries r with h | ⟨h, j, hj, h'⟩
    · rw [h]
      cases dictGet b.sentSms r with
      | none => exact h1
      | some j => simp only [List.getElem?_modify, h1]
    · rw [h, h']
      have : j ≠ i := fun h => hi (h ▸ hj)
      simp only [List.getElem?_modify, h1, this, if_false, id_map]
      cases b.sent[i]? <;> rfl
theorem fg_statusReport (l : PyStr) : Forgets F (handleSmsStatusReport l) := by
  have h1 := fun i m => fg_read (F := F) i m
  have h2 := fun i m => fg_delete (F := F) i m
  have h3 := fun c => fg_callback (F := F) c
  have h4 := fun m r d => fg_updateSent (F := F) m r d
  unfold handleSmsStatusReport; forgets
  all_goals first | exact h1 _ _ | exact h2 _ _ | exact h3 _ | exact h4 _ _ _
theorem fg_sendPdus : ∀ (ps : List Pdu) (r : Option PyStr), Forgets F (sendPdus ps r)
  | [], _ => .pure _
  | _ :: ps, _ => .bind (fg_write _ _ _) fun _ => .bind (fg_write _ _ _) fun _ => fg_sendPdus ps _
theorem fg_send [PyUnicode] (d x : PyStr) (f : Bool) : Forgets F (sendSms d x f) := by
  have h1 := fun ps r => fg_sendPdus (F := F) ps r
  have h2 := fun d x r => fg_recordSent (F := F) d x r
  unfold sendSms
  refine .get (fun s X Y h => by simp only [h]) fun s => ?_
  forgets
  all_goals first | exact h1 _ _ | exact h2 _ _ _

/-! ### Calls -/

theorem fg_handleUssd (ls : List PyStr) : Forgets F (handleUssd ls) := by unfold handleUssd; forgets
theorem fg_setAnswered (i : Nat) (v : Bool) : Forgets F (setAnswered i v) := by
  have h1 := fun c => fg_callback (F := F) c
  unfold setAnswered; forgets
  all_goals exact h1 _
theorem fg_registerCall (c : CallObj) : Forgets F (registerCall c) := .blind fun _ _ _ _ => rfl
theorem fg_registerNext (c : CallObj) : Forgets F (registerNext c) := .blind fun _ _ _ _ => rfl
theorem fg_ringLoop (n : Option PyStr) : ∀ (l : List (Int × Nat)) (c : Option Nat), Forgets F (ringLoop n l c)
  | [], c => .pure _
  | _ :: l, c => by
    have h1 := fun c => fg_ringLoop n l c
    unfold ringLoop; forgets
    all_goals exact h1 _
theorem fg_ringType (l : PyStr) : Forgets F (ringType l) := by unfold ringType; forgets
theorem fg_callTypeOf (o : Option PyStr) : Forgets F (callTypeOf o) := by cases o <;> (unfold callTypeOf; forgets)
theorem fg_incoming (ls : List PyStr) : Forgets F (handleIncomingCall ls) := by
  have h1 := fun l => fg_ringType (F := F) l
  have h2 := fun n l c => fg_ringLoop (F := F) n l c
  have h3 := fun o => fg_callTypeOf (F := F) o
  have h4 := fun c => fg_registerNext (F := F) c
  have h5 := fun c => fg_callback (F := F) c
  unfold handleIncomingCall; forgets
  all_goals first | exact h1 _ | exact h2 _ _ _ | exact h3 _ | exact h4 _ | exact h5 _
theorem fg_initiated (i k : Int) : Forgets F (handleCallInitiated i k) := by unfold handleCallInitiated; forgets
theorem fg_answered (o : Option Int) : Forgets F (handleCallAnswered o) := by
  have h1 := fun i v => fg_setAnswered (F := F) i v
  cases o <;> (unfold handleCallAnswered; forgets)
  all_goals exact h1 _ _
theorem fg_ended (o : Option Int) (x y : Bool) : Forgets F (handleCallEnded o x y) := by
  have h1 := fun i v => fg_setAnswered (F := F) i v
  unfold handleCallEnded; forgets
  all_goals exact h1 _ _
theorem fg_runCallHandler (k : CallHandler) (g : List PyStr) : Forgets F (runCallHandler k g) := by
  have h1 := fun i k => fg_initiated (F := F) i k
  have h2 := fun o => fg_answered (F := F) o
  have h3 := fun o x y => fg_ended (F := F) o x y
  cases k <;> (unfold runCallHandler; forgets)
  all_goals first | exact h1 _ _ | exact h2 _ | exact h3 _ _ _
theorem fg_dispatchLoop (all : List PyStr) : ∀ ls : List PyStr, Forgets F (dispatchLoop all ls)
  | [] => .pure _
  | _ :: ls => by
    have h0 := fg_dispatchLoop all ls
    have h1 := fun l => fg_incoming (F := F) l
    have h2 := fun l => fg_received (F := F) l
    have h3 := fun l => fg_handleUssd (F := F) l
    have h4 := fun l => fg_statusReport (F := F) l
    have h5 := fun k g => fg_runCallHandler (F := F) k g
    unfold dispatchLoop; forgets
    all_goals first | exact h1 _ | exact h2 _ | exact h3 _ | exact h4 _ | exact h5 _ _
theorem fg_clccQuery : Forgets F clccQuery := by unfold clccQuery; forgets
theorem fg_pollStep (p : Poller) (seen : Option (Int × Int × Int × Int)) : Forgets F (pollStep p seen) := by
  have h1 := fun i k => fg_initiated (F := F) i k
  have h2 := fun o => fg_answered (F := F) o
  have h3 := fun o x y => fg_ended (F := F) o x y
  unfold pollStep; forgets
  all_goals first | exact h1 _ _ | exact h2 _ | exact h3 _ _ _
theorem fg_pollRound (p : Poller) : Forgets F (pollRound p) := by
  have h1 := fg_clccQuery (F := F)
  have h2 := fun p s => fg_pollStep (F := F) p s
  unfold pollRound; forgets
  all_goals exact h2 _ _
theorem fg_event (e : Event) : Forgets F e.run := by
  refine ⟨fun env a b hab => ?_⟩
  cases e with
  | notify ls => exact ⟨rfl, ((fg_dispatchLoop ls ls).run env a b hab).2⟩
  | poll k =>
    have hp : b.pollers = a.pollers := by obtain ⟨X, Y, -, rfl⟩ := hab.cases; rfl
    simp only [Event.run, hp]
    split
    · exact ⟨rfl, hab⟩
    · next p _ =>
      have h1 := (fg_pollRound p).run env a b hab
      generalize pollRound p env a = x at h1 ⊢
      generalize pollRound p env b = y at h1 ⊢
      obtain ⟨r, a'⟩ := x
      obtain ⟨r', b'⟩ := y
      obtain ⟨h0, h2⟩ := h1
      dsimp only at h0 h2
      subst h0
      cases r with
      | ok p' => exact ⟨rfl, h2.of (f := fun s => { s with pollers := s.pollers.set k p' }) fun _ _ _ => rfl⟩
      | error e => exact ⟨rfl, h2.of (f := fun s => { s with pollers := s.pollers.set k { p with done := true } }) fun _ _ _ => rfl⟩
theorem fg_await {f : St → Bool} (hf : ∀ (s : St) X Y, f { s with sent := X, sentSms := Y } = f s) : ∀ es : List Event, Forgets F (awaitEvent f es)
  | [] => .get (fun s X Y _ => by rw [hf]) fun s => .pure _
  | e :: es => by
    have h1 := fg_event (F := F) e
    have h2 := fg_await hf es
    refine .get (fun s X Y _ => ?_) fun s => ?_
    · rw [hf]
    · forgets
theorem fg_sendWait [PyUnicode] (d x : PyStr) (f : Bool) (e du : List Event) : Forgets F (sendSmsWait d x f e du) := by
  have h1 := fg_send (F := F) d x f
  have h2 := fg_await (F := F) (f := fun _ => false) (fun _ _ _ => rfl) e
  have h3 := fg_await (F := F) (f := fun s => s.smsStatusReportEvent = some true) (fun _ _ _ => rfl) du
  unfold sendSmsWait; forgets
theorem fg_sendUssd (x : PyStr) (du : List Event) : Forgets F (sendUssd x du) := by
  have h3 := fg_await (F := F) (f := fun s => s.ussdSessionEvent = some true) (fun _ _ _ => rfl) du
  unfold sendUssd; forgets
theorem fg_reply (u : Ussd) (x : PyStr) (du : List Event) : Forgets F (u.reply x du) := by
  have := fg_sendUssd (F := F) x du
  unfold Ussd.reply; forgets
theorem fg_cancel (u : Ussd) : Forgets F u.cancel := by unfold Ussd.cancel; forgets
theorem fg_writeAtd (n : PyStr) : Forgets F (writeAtd n) := by unfold writeAtd; forgets
theorem fg_dial (n : PyStr) (x : Nat) (cb : Bool) (du : List Event) : Forgets F (dial n x cb du) := by
  have h1 := fg_writeAtd (F := F) n
  have h2 := fun c => fg_registerNext (F := F) c
  have h3 := fg_await (F := F) (f := fun s => s.dialEvent = some true) (fun _ _ _ => rfl) du
  have h4 := fun c => fg_registerCall (F := F) c
  unfold dial; forgets
  all_goals first | exact h2 _ | exact h4 _
theorem fg_hangup (i : Nat) : Forgets F (hangup i) := by
  have h1 := fun i v => fg_setAnswered (F := F) i v
  unfold hangup stopRinging hangupActive; forgets
  all_goals exact h1 _ _
theorem fg_answer (i : Nat) : Forgets F (answer i) := by
  have h1 := fun i v => fg_setAnswered (F := F) i v
  unfold answer; forgets
  all_goals exact h1 _ _

theorem fg_dtmf (i : Nat) (x : PyStr) : Forgets F (sendDtmfTone i x) := by
  unfold sendDtmfTone; forgets

theorem fg_deed [PyUnicode] (d : Deed) : Forgets F d.run := by
  have hdis : ∀ {α : Type} {m : M α}, Forgets F m → Forgets F (discard m) := by
    intro α m h
    unfold discard; forgets
  cases d with
  | connect pin => exact fg_connect pin
  | close => exact .modify fun _ _ _ => rfl
  | op o =>
    cases o with
    | event e => exact fg_event e
    | setTextMode v => exact fg_textMode v
    | setSmsc n => exact fg_setSmsc n
    | getSmsc => exact hdis fg_getSmsc
    | signalStrength => exact hdis fg_signalStrength
    | manufacturer => exact hdis fg_manufacturer
    | model => exact hdis fg_model
    | revision => exact hdis fg_revision
    | imei => exact hdis fg_imei
    | imsi => exact hdis fg_imsi
    | networkName => exact hdis fg_networkName
    | supportedCommands => exact hdis fg_supportedCommands
    | waitForNetworkCoverage r => exact hdis (fg_coverage r true)
    | read i m => exact hdis (fg_read i m)
    | delete i m => exact fg_delete i m
    | deleteMultiple f m => exact fg_deleteMultiple f m
    | list st m d => exact hdis (fg_list st m d)
    | process u => exact fg_process u
    | send d t f => exact hdis (fg_send d t f)
    | sendWait d t f e du => exact hdis (fg_sendWait d t f e du)
    | ussd s du => exact hdis (fg_sendUssd s du)
    | ussdReply u s du => exact hdis (fg_reply u s du)
    | ussdCancel u => exact fg_cancel u
    | dial n t cb du => exact hdis (fg_dial n t cb du)
    | answer c => exact fg_answer c
    | hangup c => exact fg_hangup c
    | dtmf c t => exact fg_dtmf c t

/-! ### Forgetting -/

theorem dictGet_forget {d : List (Int × Nat)} (hd : (d.map Prod.fst).Nodup) (i : Nat) (r : Int) :
    dictGet (d.filter fun e => e.2 ≠ i) r = if dictGet d r = some i then none else dictGet d r := by
  have hn : ((d.filter fun e => e.2 ≠ i).map Prod.fst).Nodup := (List.filter_sublist.map _).nodup hd
  split
  · next h =>
    rw [dictGet_none]
    intro hm
    obtain ⟨⟨k, v⟩, hm, rfl⟩ := List.mem_map.1 hm
    replace hm := List.mem_filter.1 ‹_›
    have := dictGet_of_mem hd hm.1
    rw [this] at h
    cases h
    simp at hm
  · next h =>
    cases hg : dictGet d r with
    | none =>
      rw [dictGet_none] at hg ⊢
      exact fun hm => hg ((List.filter_sublist.map _).subset hm)
    | some j =>
      rw [hg] at h
      exact dictGet_of_mem hn (List.mem_filter.2 ⟨dictGet_mem hg, by simpa using fun h' => h (by rw [h'])⟩)

theorem AlikeBut.forget {a b : St} (h : AlikeBut F a b) {i : Nat} (hi : i ∈ F) : AlikeBut F (a.forget i) b := by
  refine ⟨⟨h.1.rest, h.1.messages, h.1.reports, fun r => ?_⟩, (List.filter_sublist.map _).nodup h.2⟩
  show dictGet (a.sentSms.filter fun e => e.2 ≠ i) r = _ ∨ dictGet (a.sentSms.filter fun e => e.2 ≠ i) r = _ ∧ _
  rw [dictGet_forget h.2]
  split
  · next h1 =>
    rcases h.1.entries r with h2 | h2
    · exact .inr ⟨rfl, i, hi, h2 ▸ h1⟩
    · rw [h1] at h2; exact absurd h2.1 (by simp)
  · exact h.1.entries r

theorem forgetful_alike [PyUnicode] {env : Env} : ∀ (hs : List WeakStep) (a b : St), AlikeBut F a b → (∀ i ∈ forgottenIn hs, i ∈ F) →
    (runForgetful env hs a).1 = (runDeeds env (deedsLeft hs) b).1 ∧ AlikeBut F (runForgetful env hs a).2 (runDeeds env (deedsLeft hs) b).2
  | [], _, _, hab, _ => ⟨rfl, hab⟩
  | .deed d :: hs, a, b, hab, hF => by
    obtain ⟨h1, h2⟩ := (fg_deed (F := F) d).run env a b hab
    obtain ⟨h3, h4⟩ := forgetful_alike hs _ _ h2 hF
    exact ⟨congrArg₂ List.cons h1 h3, h4⟩
  | .forget i :: hs, a, b, hab, hF => forgetful_alike hs _ _ (hab.forget (hF i List.mem_cons_self)) fun j hj => hF j (List.mem_cons_of_mem _ hj)

theorem oneEntry_deed [PyUnicode] {env : Env} (d : Deed) {s : St} (h : OneEntry s) : OneEntry (d.run env s).2 :=
  ((fg_deed (F := []) d).run env s s ⟨⟨rfl, rfl, fun _ _ => rfl, fun _ => .inl rfl⟩, h⟩).2.2

end Gsm
