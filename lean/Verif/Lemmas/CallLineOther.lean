import Verif.Lemmas.CallLineSteps
import Verif.Spec.PolledCall
/-! # Lemmas: work that has nothing to do with calls leaves their table alone -/
namespace Gsm
open M Spec

variable {env : Env}

/-- What the work must not change. -/
def callView (s : St) : (List CallObj × List (Int × Nat) × Bool × List Nat) × List Poller × Bool × List Nat :=
  ((s.calls, s.activeCalls, s.waitForCallInitUpdate, rungBack s.callbacks), s.pollers, s.alive, toldBack s.callbacks)

abbrev CallFrame : St → St → Prop := Frame (fun _ => True) callView

theorem lf_write (data term : PyStr) (pe : Bool) : Steps env CallFrame (write data pe term) :=
  frame_write trivial fun _ _ _ => rfl

macro "lframe" : tactic => `(tactic| (steps frame_pre) <;> try first
  | exact lf_write _ _ _
  | exact frame_same rfl rfl)

theorem lf_received (m : Msg) : Steps env CallFrame (callback (.smsReceived m)) := by unfold callback; lframe
theorem lf_report (m : Msg) : Steps env CallFrame (callback (.statusReport m)) := by unfold callback; lframe
theorem lf_memory (m w : Option PyStr) : Steps env CallFrame (setSmsMemory m w) := by unfold setSmsMemory; lframe
theorem lf_read (i : PyStr) (m : Option PyStr) : Steps env CallFrame (readStoredSms i m) := by
  have := lf_memory (env := env) m none
  unfold readStoredSms; lframe
theorem lf_delete (i : PyStr) (m : Option PyStr) : Steps env CallFrame (deleteStoredSms i m) := by
  have := lf_memory (env := env) m none
  unfold deleteStoredSms; lframe
theorem lf_deleteMultiple (f : Int) (m : Option PyStr) : Steps env CallFrame (deleteMultipleStoredSms f m) := by
  have := lf_memory (env := env) m none
  unfold deleteMultipleStoredSms; lframe
theorem lf_deleteAll : ∀ l : List Int, Steps env CallFrame (deleteAll l)
  | [] => by unfold deleteAll; lframe
  | i :: l => by
    have h1 := lf_deleteAll l
    have h2 := fun i => lf_delete (env := env) i none
    unfold deleteAll; lframe <;> first | exact h2 _ | exact h1
theorem lf_list (st : Int) (m : Option PyStr) (d : Bool) : Steps env CallFrame (listStoredSms st m d) := by
  have h1 := lf_memory (env := env) m none
  have h4 := lf_deleteMultiple (env := env) 4 none
  have h5 : ∀ l : List Int, Steps env CallFrame (deleteSet l) := fun l => ⟨fun s => (lf_deleteAll _).run s⟩
  unfold listStoredSms deleteListed; lframe <;> exact h5 _
theorem lf_callbackAll : ∀ ms : List Msg, Steps env CallFrame (callbackAll ms)
  | [] => by unfold callbackAll; lframe
  | m :: ms => by
    have h1 := lf_callbackAll ms
    have h2 := lf_received (env := env) m
    unfold callbackAll; lframe
theorem lf_process (u : Bool) : Steps env CallFrame (processStoredSms u) := by
  have h1 := lf_list (env := env) 1 none true
  have h2 := lf_list (env := env) 0 none true
  have h3 := lf_callbackAll (env := env)
  unfold processStoredSms; lframe <;> exact h3 _
theorem lf_sendPdus : ∀ (ps : List Pdu) (r : Option PyStr), Steps env CallFrame (sendPdus ps r)
  | [], _ => by unfold sendPdus; lframe
  | _ :: ps, _ => by
    have := fun r => lf_sendPdus ps r
    unfold sendPdus; lframe <;> exact this _
theorem lf_send [PyUnicode] (d t : PyStr) (f : Bool) : Steps env CallFrame (sendSms d t f) := by
  unfold sendSms recordSent; lframe <;> exact lf_sendPdus _ _
theorem lf_dtmf (i : Nat) (t : PyStr) : Steps env CallFrame (sendDtmfTone i t) := by unfold sendDtmfTone; lframe
theorem lf_smsReceived (l : PyStr) : Steps env CallFrame (handleSmsReceived l) := by
  have h1 := fun i m => lf_read (env := env) i m
  have h2 := fun i => lf_delete (env := env) i none
  unfold handleSmsReceived; lframe <;> first | exact h1 _ _ | exact h2 _ | exact lf_received _
theorem lf_statusReport (l : PyStr) : Steps env CallFrame (handleSmsStatusReport l) := by
  have h1 := fun i m => lf_read (env := env) i m
  have h2 := fun i => lf_delete (env := env) i none
  unfold handleSmsStatusReport updateSent; lframe <;> first | exact h1 _ _ | exact h2 _ | exact lf_report _
theorem lf_ussd (ls : List PyStr) : Steps env CallFrame (handleUssd ls) := by unfold handleUssd; lframe

theorem tracks_view {L : PhoneLine} {s s' : St} (h : Mirrors L s) (hv : callView s' = callView s) : Tracks L s s' [] := by
  unfold callView at hv
  simp only [Prod.mk.injEq] at hv
  exact tracks_same h hv.1.1 hv.1.2.1 hv.1.2.2.1 hv.1.2.2.2

theorem other_view [PyUnicode] {op : Op} (h : OtherWork op) : Steps env CallFrame op.run := by
  have hd : ∀ {α : Type} {m : M α}, Steps env CallFrame m → Steps env CallFrame (discard m) := by
    intro α m hm
    unfold discard; lframe
  cases h with
  | setTextMode => simp only [Op.run]; unfold setSmsTextMode; lframe
  | setSmsc => simp only [Op.run]; unfold Gsm.setSmsc; lframe
  | getSmsc => exact hd (by unfold Gsm.getSmsc; lframe)
  | signalStrength => exact hd (by unfold Gsm.signalStrength; lframe)
  | networkName => exact hd (by unfold Gsm.networkName; lframe)
  | imei => exact hd (by unfold Gsm.imei; lframe)
  | read => exact hd (lf_read _ _)
  | delete => exact lf_delete _ _
  | deleteMultiple => exact lf_deleteMultiple _ _
  | list => exact hd (lf_list _ _ _)
  | process => exact lf_process _
  | send => exact hd (lf_send _ _ _)
  | ussdCancel => simp only [Op.run]; unfold Ussd.cancel; lframe
  | dtmf => exact lf_dtmf _ _

/-- Every event, if calls can be told apart. -/
theorem goes [PyUnicode] (hd : 0 < env.depth) {L L' : PhoneLine} {s s' : St} {e : LineEvent} (h : Mirrors L s) (hl : LineOk L) (hn : NumbersDiffer L)
    (hg : Distinguishable s.waitForCallInitUpdate L e) (hstep : LineStep L e L') (hsees : SeesLine env L s e s') : Tracks L' s s' (rungCalls L.length [e]) := by
  cases hsees with
  | comes hr => cases hstep with
    | comes hf => exact goes_comes hd h hl hf hg.1 hg.2 hr
  | rings hk hr => cases hstep with
    | rings hk' ho hi ha =>
      rw [hk] at hk'; cases hk'
      exact goes_rings hd h hl hn hk ho hi hr
  | dialled hf hw hok => cases hstep with
    | dialled hf' =>
      obtain rfl := free_unique hf hf'
      exact goes_dialled hd h hl hf hg.1 hw hok
  | taken hk hs => cases hstep with
    | taken hk' ho hi =>
      rw [hk] at hk'; cases hk'
      exact goes_taken h hl hk ho hi hs
  | someTaken hk hs ha hu => cases hstep with
    | taken hk' ho hi =>
      rw [hk] at hk'; cases hk'
      exact goes_someTaken h hl hk ho hi ha hs hu
  | accepted hok => cases hstep with
    | accepted hk ho hi ha => exact goes_accepted h hl hk ho hi ha hok
  | ends hk hs => cases hstep with
    | ends hk' ho =>
      rw [hk] at hk'; cases hk'
      exact (goes_ends h hl (fun h0 => hl.2 (mem_used.2 ⟨_, _, hk, ho, h0⟩)) hs).1
  | hungUp hok h1 h2 => cases hstep with
    | hungUp hk ho => exact goes_hungUp h hl hk ho hok h1 h2
  | hungUpLate => cases hstep with
    | hungUpLate hk ho => exact goes_hungUpLate h hk ho (hg _ hk)
  | answerRefused he => cases hstep with
    | nothing => exact goes_answerRefused h he
  | dialRefused he => cases hstep with
    | nothing => exact goes_dialRefused hd h he
  | @otherNews pre line post d hpre ha hdd => cases hstep with
    | nothing =>
      rw [C43_first hpre ha]
      refine tracks_view h ?_
      rcases hdd with rfl | rfl | rfl
      · exact ((lf_smsReceived line).run s).2
      · exact ((lf_statusReport line).run s).2
      · exact ((lf_ussd _).run s).2
  | noNews hnone => cases hstep with
    | nothing => rw [C43_none hnone]; exact tracks_view h rfl
  | other ho => cases hstep with
    | nothing => exact tracks_view h ((other_view ho).run s).2

end Gsm
