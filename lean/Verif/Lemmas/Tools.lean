import Verif.Model.Tools
import Verif.Props.ModemDelivery
import Verif.Props.ModemSend
/-! # What leaves the port and the format of messages alone -/
namespace Gsm
open M Spec

variable {env : Env}

/-- Whether the port is open, and the format of messages. -/
def openState (s : St) : Bool × Bool := (s.alive, s.smsTextMode)

abbrev OpenFrame : St → St → Prop := Frame (fun _ => True) openState

theorem of_write (data term : PyStr) (pe : Bool) : Steps env OpenFrame (write data pe term) :=
  frame_write trivial fun _ _ _ => rfl

macro "oframe" : tactic => `(tactic| (steps frame_pre) <;> try first
  | exact of_write _ _ _
  | exact frame_same rfl rfl)

theorem of_callback (c : Callback) : Steps env OpenFrame (callback c) := by unfold callback; oframe
theorem of_memory (m w : Option PyStr) : Steps env OpenFrame (setSmsMemory m w) := by unfold setSmsMemory; oframe
theorem of_read (i : PyStr) (m : Option PyStr) : Steps env OpenFrame (readStoredSms i m) := by
  have := of_memory (env := env) m none
  unfold readStoredSms; oframe
theorem of_delete (i : PyStr) (m : Option PyStr) : Steps env OpenFrame (deleteStoredSms i m) := by
  have := of_memory (env := env) m none
  unfold deleteStoredSms; oframe
theorem of_received (l : PyStr) : Steps env OpenFrame (handleSmsReceived l) := by
  have h1 := fun i m => of_read (env := env) i m
  have h2 := fun i => of_delete (env := env) i none
  unfold handleSmsReceived; oframe <;> first | exact h1 _ _ | exact h2 _ | exact of_callback _
theorem of_statusReport (l : PyStr) : Steps env OpenFrame (handleSmsStatusReport l) := by
  have h1 := fun i m => of_read (env := env) i m
  have h2 := fun i => of_delete (env := env) i none
  unfold handleSmsStatusReport updateSent; oframe <;> first | exact h1 _ _ | exact h2 _ | exact of_callback _
theorem of_ussd (ls : List PyStr) : Steps env OpenFrame (handleUssd ls) := by unfold handleUssd; oframe
theorem of_setAnswered (i : Nat) (v : Bool) : Steps env OpenFrame (setAnswered i v) := by unfold setAnswered callback; oframe
theorem of_initiated (a b : Int) : Steps env OpenFrame (handleCallInitiated a b) := by unfold handleCallInitiated; oframe
theorem of_answered (c : Option Int) : Steps env OpenFrame (handleCallAnswered c) := by
  have := fun i => of_setAnswered (env := env) i true
  unfold handleCallAnswered; oframe <;> exact this _
theorem of_ended (c : Option Int) (a b : Bool) : Steps env OpenFrame (handleCallEnded c a b) := by
  have := fun i => of_setAnswered (env := env) i false
  unfold handleCallEnded; oframe <;> exact this _
theorem of_ringLoop (n : Option PyStr) : ∀ (l : List (Int × Nat)) (c : Option Nat), Steps env OpenFrame (ringLoop n l c)
  | [], c => by unfold ringLoop; oframe
  | (k, i) :: l, c => by
    have := fun c => of_ringLoop n l c
    unfold ringLoop; oframe <;> exact this _
theorem of_ringType (l : PyStr) : Steps env OpenFrame (ringType l) := by unfold ringType; oframe
theorem of_callTypeOf (t : Option PyStr) : Steps env OpenFrame (callTypeOf t) := by unfold callTypeOf; oframe
theorem of_registerNext (c : CallObj) : Steps env OpenFrame (registerNext c) := ⟨fun _ => frame_same rfl rfl⟩
theorem of_incoming (ls : List PyStr) : Steps env OpenFrame (handleIncomingCall ls) := by
  unfold handleIncomingCall; oframe <;> first | exact of_ringType _ | exact of_ringLoop _ _ _ | exact of_callback _ | exact of_callTypeOf _ | exact of_registerNext _
theorem of_runCallHandler (h : CallHandler) (g : List PyStr) : Steps env OpenFrame (runCallHandler h g) := by
  unfold runCallHandler; oframe <;> first | exact of_initiated _ _ | exact of_answered _ | exact of_ended _ _ _
theorem of_dispatch (all : List PyStr) : ∀ ls, Steps env OpenFrame (dispatchLoop all ls)
  | [] => by unfold dispatchLoop; oframe
  | l :: ls => by
    have := of_dispatch all ls
    unfold dispatchLoop; oframe <;> first | exact of_incoming _ | exact of_received _ | exact of_ussd _ | exact of_statusReport _ | exact of_runCallHandler _ _ | exact this
theorem of_clccQuery : Steps env OpenFrame clccQuery := by unfold clccQuery; oframe
theorem of_pollStep (p : Poller) (x : Option (Int × Int × Int × Int)) : Steps env OpenFrame (pollStep p x) := by
  unfold pollStep; oframe <;> first | exact of_initiated _ _ | exact of_answered _ | exact of_ended _ _ _
theorem of_pollRound (p : Poller) : Steps env OpenFrame (pollRound p) := by
  unfold pollRound; oframe <;> first | exact of_clccQuery | exact of_pollStep _ _
theorem of_event (e : Event) : Steps env OpenFrame e.run := by
  refine ⟨fun s => ?_⟩
  cases e with
  | notify ls => exact (of_dispatch ls ls).run s
  | poll k =>
    simp only [Event.run]
    split
    · exact frame_same rfl rfl
    · rename_i p _
      have h := (of_pollRound (env := env) p).run s
      split <;> rename_i hh <;> rw [hh] at h <;> exact h
theorem of_await (f : St → Bool) : ∀ es, Steps env OpenFrame (awaitEvent f es)
  | [] => by unfold awaitEvent; oframe
  | e :: es => by
    have := of_await f es
    unfold awaitEvent; oframe <;> first | exact of_event _ | exact this
theorem of_sendPdus : ∀ (ps : List Pdu) (r : Option PyStr), Steps env OpenFrame (sendPdus ps r)
  | [], _ => by unfold sendPdus; oframe
  | _ :: ps, _ => by
    have := fun r => of_sendPdus ps r
    unfold sendPdus; oframe <;> exact this _
theorem of_send [PyUnicode] (d t : PyStr) (f : Bool) : Steps env OpenFrame (sendSms d t f) := by
  unfold sendSms recordSent; oframe <;> exact of_sendPdus _ _
theorem of_sendWait [PyUnicode] (d t : PyStr) (f : Bool) (e du : List Event) : Steps env OpenFrame (sendSmsWait d t f e du) := by
  unfold sendSmsWait; oframe <;> first | exact of_send _ _ _ | exact of_await _ _
theorem of_signal : Steps env OpenFrame signalStrength := by unfold signalStrength; oframe
theorem of_coverage : ∀ (n : Nat) (b : Bool), Steps env OpenFrame (coverageLoop n b)
  | 0, _ => by unfold coverageLoop; oframe
  | n + 1, true => by
    have := fun b => of_coverage n b
    unfold coverageLoop; oframe <;> exact this _
  | n + 1, false => by
    have := fun b => of_coverage n b
    unfold coverageLoop; oframe <;> first | exact of_signal | exact this _

theorem connect_open (pin : Option PyStr) (s : St) : openState (connect pin env s).2 = (true, s.smsTextMode) := by
  have h1 : Steps env OpenFrame (unlockSim pin) := by unfold unlockSim; oframe
  have h2 : ∀ b, Steps env OpenFrame (connectRest pin b) := by intro b; unfold connectRest; oframe
  have h3 : Steps env OpenFrame (connectBasics pin) := by unfold connectBasics; oframe <;> exact h2 _
  have h4 : Steps env OpenFrame supportedCommands := by unfold supportedCommands; oframe
  have h5 : ∀ cs, Steps env OpenFrame (identifyCommands cs) := by intro cs; unfold identifyCommands; oframe
  have h6 : ∀ h, Steps env OpenFrame (identifyWind h) := by intro cs; unfold identifyWind; oframe
  have h7 : ∀ h, Steps env OpenFrame (identifyOther h) := by intro cs; unfold identifyOther manufacturer; oframe
  have h8 : Steps env OpenFrame connectIdentify := by
    unfold connectIdentify; oframe <;> first | exact h5 _ | exact h6 _ | exact h7 _
  have h9 : ∀ h cs, Steps env OpenFrame (connectCallTable h cs) := by
    intro h cs
    unfold connectCallTable
    refine Steps.modify fun s => ?_
    repeat' split
    all_goals exact frame_same rfl rfl
  have h10 : Steps env OpenFrame getSmsc := by unfold getSmsc; oframe
  have h11 : ∀ n, Steps env OpenFrame (setSmsc n) := by intro n; unfold setSmsc; oframe
  have h12 : Steps env OpenFrame connectSms := by unfold connectSms; oframe <;> exact h11 _
  have h13 : Steps env OpenFrame connectMemory := by unfold connectMemory; oframe
  have h14 : Steps env OpenFrame connectNotifications := by unfold connectNotifications; oframe
  have h : Steps env OpenFrame (do
      connectBasics pin
      let (hint, commands) ← connectIdentify
      connectCallTable hint commands
      connectSms
      connectMemory
      connectNotifications) := by oframe; exact h9 _ _
  exact (h.run { s with alive := true }).2

end Gsm
