import Verif.Lemmas.ModemFrame
/-! # What leaves the wait of `dial` alone -/
namespace Gsm
open M

variable {env : Env}

/-- What `dial` waits for. -/
def dialState (s : St) : Option Bool × Option (Int × Int) := (s.dialEvent, s.dialResponse)

abbrev DialFrame : St → St → Prop := Frame (fun _ => True) dialState

theorem df_write (data term : PyStr) (pe : Bool) : Steps env DialFrame (write data pe term) :=
  frame_write trivial fun _ _ _ => rfl

macro "dframe" : tactic => `(tactic| (steps frame_pre) <;> try first
  | exact df_write _ _ _
  | exact frame_same rfl rfl)

theorem df_callback (c : Callback) : Steps env DialFrame (callback c) := by unfold callback; dframe
theorem df_memory (m w : Option PyStr) : Steps env DialFrame (setSmsMemory m w) := by unfold setSmsMemory; dframe
theorem df_read (i : PyStr) (m : Option PyStr) : Steps env DialFrame (readStoredSms i m) := by
  have := df_memory (env := env) m none
  unfold readStoredSms; dframe
theorem df_delete (i : PyStr) (m : Option PyStr) : Steps env DialFrame (deleteStoredSms i m) := by
  have := df_memory (env := env) m none
  unfold deleteStoredSms; dframe
theorem df_received (l : PyStr) : Steps env DialFrame (handleSmsReceived l) := by
  have h1 := fun i m => df_read (env := env) i m
  have h2 := fun i => df_delete (env := env) i none
  unfold handleSmsReceived; dframe <;> first | exact h1 _ _ | exact h2 _ | exact df_callback _
theorem df_statusReport (l : PyStr) : Steps env DialFrame (handleSmsStatusReport l) := by
  have h1 := fun i m => df_read (env := env) i m
  have h2 := fun i => df_delete (env := env) i none
  unfold handleSmsStatusReport updateSent; dframe <;> first | exact h1 _ _ | exact h2 _ | exact df_callback _
theorem df_ussd (ls : List PyStr) : Steps env DialFrame (handleUssd ls) := by unfold handleUssd; dframe
theorem df_setAnswered (i : Nat) (v : Bool) : Steps env DialFrame (setAnswered i v) := by unfold setAnswered callback; dframe
theorem df_answered (c : Option Int) : Steps env DialFrame (handleCallAnswered c) := by
  have := fun i => df_setAnswered (env := env) i true
  unfold handleCallAnswered; dframe <;> exact this _
theorem df_ended (c : Option Int) (a b : Bool) : Steps env DialFrame (handleCallEnded c a b) := by
  have := fun i => df_setAnswered (env := env) i false
  unfold handleCallEnded; dframe <;> exact this _
theorem df_ringLoop (n : Option PyStr) : ∀ (l : List (Int × Nat)) (c : Option Nat), Steps env DialFrame (ringLoop n l c)
  | [], c => by unfold ringLoop; dframe
  | (k, i) :: l, c => by
    have := fun c => df_ringLoop n l c
    unfold ringLoop; dframe <;> exact this _
theorem df_ringType (l : PyStr) : Steps env DialFrame (ringType l) := by unfold ringType; dframe
theorem df_callTypeOf (t : Option PyStr) : Steps env DialFrame (callTypeOf t) := by unfold callTypeOf; dframe
theorem df_registerNext (c : CallObj) : Steps env DialFrame (registerNext c) := ⟨fun _ => frame_same rfl rfl⟩
theorem df_incoming (ls : List PyStr) : Steps env DialFrame (handleIncomingCall ls) := by
  unfold handleIncomingCall; dframe <;> first | exact df_ringType _ | exact df_ringLoop _ _ _ | exact df_callback _ | exact df_callTypeOf _ | exact df_registerNext _
theorem df_clccQuery : Steps env DialFrame clccQuery := by unfold clccQuery; dframe

/-- The same, and nothing is written. -/
abbrev QuietFrame : St → St → Prop := Frame (fun _ => False) dialState

theorem qf_setAnswered (i : Nat) (v : Bool) : Steps env QuietFrame (setAnswered i v) := by
  unfold setAnswered callback; (steps frame_pre) <;> exact frame_same rfl rfl
theorem qf_answered (c : Option Int) : Steps env QuietFrame (handleCallAnswered c) := by
  have := fun i => qf_setAnswered (env := env) i true
  unfold handleCallAnswered; (steps frame_pre) <;> exact this _
theorem qf_ended (c : Option Int) (a b : Bool) : Steps env QuietFrame (handleCallEnded c a b) := by
  have := fun i => qf_setAnswered (env := env) i false
  unfold handleCallEnded; (steps frame_pre) <;> first | exact this _ | exact frame_same rfl rfl

theorem quiet_log {a b : St} (h : QuietFrame a b) : b.log = a.log := by
  obtain ⟨⟨new, h1, h2⟩, _⟩ := h
  cases new with
  | nil => simpa using h1
  | cons c _ => exact (h2 c (by simp)).elim

end Gsm
