import Verif.Lemmas.ModemReach
/-! # What most operations leave alone: the SMS mode and the memory selection -/
namespace Gsm
open M

/-- Decomposes a program; leaves writes, changes of the state and calls of other programs. -/
macro "steps" h:term : tactic => `(tactic| repeat' first
    | (with_reducible exact Steps.pure $h _)
    | (with_reducible exact Steps.get $h)
    | (with_reducible exact Steps.raise $h _)
    | (with_reducible exact Steps.ofExcept $h _)
    | (with_reducible exact Steps.firstLine $h _)
    | assumption
    | (with_reducible refine Steps.bind $h ?_ ?_)
    | (with_reducible refine Steps.except $h ?_ ?_)
    | (with_reducible refine Steps.tryCommand $h ?_)
    | (with_reducible refine Steps.modify fun s => ?_)
    | (with_reducible dsimp only)
    | intro _
    | split)

/-- New commands all satisfy `P`, and `f` of the state stays the same. -/
def Frame {β : Type} (P : PyStr → Prop) (f : St → β) (a b : St) : Prop :=
  (∃ new, b.log = new ++ a.log ∧ ∀ c ∈ new, P c) ∧ f b = f a

variable {β : Type} {P : PyStr → Prop} {f : St → β} {env : Env}

theorem frame_pre : IsPre (Frame P f) where
  refl := fun s => ⟨⟨[], by simp⟩, rfl⟩
  trans := by
    rintro a b c ⟨⟨n1, h1, h2⟩, h3⟩ ⟨⟨n2, h4, h5⟩, h6⟩
    refine ⟨⟨n2 ++ n1, by simp [h4, h1], ?_⟩, by rw [h6, h3]⟩
    intro c hc
    rcases List.mem_append.1 hc with hc | hc
    · exact h5 c hc
    · exact h2 c hc

theorem frame_write {data term : PyStr} {pe : Bool} (hP : P (data ++ term))
    (hf : ∀ (s : St) l w, f { s with log := l, writeWait := w } = f s) : Steps env (Frame P f) (write data pe term) :=
  Steps.write fun s k w => ⟨⟨List.replicate k (data ++ term), rfl, fun c hc => by rw [List.eq_of_mem_replicate hc]; exact hP⟩, hf s _ _⟩

theorem frame_same {s s' : St} (h1 : s'.log = s.log) (h2 : f s' = f s) : Frame P f s s' := ⟨⟨[], by simp [h1]⟩, h2⟩

/-- What most operations leave alone. -/
def modeMem (s : St) : Bool × Bool × Option PyStr := (s.alive, s.smsTextMode, s.smsMemReadDelete)

abbrev PlainFrame : St → St → Prop := Frame PlainCmd modeMem

theorem pf_write {data term : PyStr} {pe : Bool} (h : PlainCmd (data ++ term)) : Steps env PlainFrame (write data pe term) :=
  frame_write h fun _ _ _ => rfl

macro "pframe" : tactic => `(tactic| (steps frame_pre) <;> try first
  | exact pf_write (plain_const _)
  | exact frame_same rfl rfl)

theorem pf_setAnswered (i : Nat) (v : Bool) : Steps env PlainFrame (setAnswered i v) := by
  unfold setAnswered callback; pframe
theorem pf_hangup (i : Nat) : Steps env PlainFrame (hangup i) := by
  have := pf_setAnswered (env := env) i false
  unfold hangup stopRinging hangupActive; pframe
theorem pf_answer (i : Nat) : Steps env PlainFrame (answer i) := by
  have := pf_setAnswered (env := env) i true
  unfold answer; pframe
theorem pf_ended (c : Option Int) (a b : Bool) : Steps env PlainFrame (handleCallEnded c a b) := by
  have := fun i => pf_setAnswered (env := env) i false
  unfold handleCallEnded; pframe <;> exact this _

/-! ### connect -/

theorem plain_pin (pin : PyStr) : PlainCmd (py!"AT+CPIN=\"" ++ pin ++ py!"\"" ++ [13]) := by
  simpa using plain_prefix py!"AT+CPIN" _
theorem plain_csca (n : PyStr) : PlainCmd (cscaCmd n ++ [13]) := by simpa [cscaCmd] using plain_prefix py!"AT+CSCA" _

theorem pf_unlock (pin : Option PyStr) : Steps env PlainFrame (unlockSim pin) := by
  unfold unlockSim; pframe
  exact pf_write (plain_pin _)
theorem pf_rest (pin : Option PyStr) (b : Bool) : Steps env PlainFrame (connectRest pin b) := by
  have := pf_unlock (env := env) pin
  unfold connectRest; pframe
theorem pf_basics (pin : Option PyStr) : Steps env PlainFrame (connectBasics pin) := by
  have := pf_unlock (env := env) pin
  have h2 := pf_rest (env := env) pin
  unfold connectBasics; pframe <;> exact h2 _
theorem pf_supportedCommands : Steps env PlainFrame supportedCommands := by unfold supportedCommands; pframe
theorem pf_manufacturer : Steps env PlainFrame manufacturer := by unfold manufacturer; pframe
theorem pf_identifyCommands (cs : List PyStr) : Steps env PlainFrame (identifyCommands cs) := by
  unfold identifyCommands; pframe
theorem pf_identifyWind (h : Nat) : Steps env PlainFrame (identifyWind h) := by
  unfold identifyWind; pframe
theorem pf_identifyOther (h : Nat) : Steps env PlainFrame (identifyOther h) := by
  have h2 := pf_manufacturer (env := env)
  unfold identifyOther; pframe
theorem pf_identify : Steps env PlainFrame connectIdentify := by
  have h1 := pf_supportedCommands (env := env)
  have h2 := pf_identifyCommands (env := env)
  have h3 := pf_identifyWind (env := env)
  have h4 := pf_identifyOther (env := env)
  unfold connectIdentify; pframe <;> first | exact h2 _ | exact h3 _ | exact h4 _
theorem pf_callTable (h : Nat) (cs : Option (List PyStr)) : Steps env PlainFrame (connectCallTable h cs) := by
  unfold connectCallTable
  refine Steps.modify fun s => ?_
  split
  · exact frame_same rfl rfl
  · split
    · exact frame_same rfl rfl
    · split <;> exact frame_same rfl rfl
theorem pf_notifications : Steps env PlainFrame connectNotifications := by unfold connectNotifications; pframe
theorem pf_getSmsc : Steps env PlainFrame getSmsc := by unfold getSmsc; pframe
theorem pf_setSmsc (n : Option PyStr) : Steps env PlainFrame (setSmsc n) := by
  have := fun n => pf_write (env := env) (pe := true) (plain_csca n)
  unfold setSmsc; pframe
  exact this _

/-- Only the mode and memory changes touch the mode and the memory. -/
theorem atom_cases {a b : St} (h : Atom env a b) : PlainFrame a b ∨ (∃ v, b = (setSmsTextMode v env a).2) ∨ (∃ m, b = (setSmsMemory m none env a).2) := by
  cases h with
  | cmd c k w hc => exact .inl ⟨⟨List.replicate k c, rfl, fun x hx => by rw [List.eq_of_mem_replicate hx]; exact hc.1⟩, rfl⟩
  | textMode v => exact .inr (.inl ⟨v, rfl⟩)
  | memory m => exact .inr (.inr ⟨m, rfl⟩)
  | getSmsc => exact .inl (pf_getSmsc.run a)
  | setSmsc n => exact .inl ((pf_setSmsc n).run a)
  | answered i k _ => exact .inl ((pf_setAnswered i true).run a)
  | answeredFirst i _ => exact .inl ((pf_setAnswered i true).run a)
  | ended c x y => exact .inl ((pf_ended c x y).run a)
  | hangup i => exact .inl ((pf_hangup i).run a)
  | answer i => exact .inl ((pf_answer i).run a)
  | _ => exact .inl (frame_same rfl rfl)

/-! ### Running programs -/

theorem run_bind {α β : Type} (m : M α) (f : α → M β) (s : St) :
    (m >>= f) env s = match m env s with | (.ok a, s) => f a env s | (.error e, s) => (.error e, s) := rfl
theorem run_pure {α : Type} (a : α) (s : St) : (pure a : M α) env s = (.ok a, s) := rfl
theorem run_get (s : St) : M.get env s = (.ok s, s) := rfl
theorem run_modify (g : St → St) (s : St) : M.modify g env s = (.ok (), g s) := rfl
theorem run_raise {α : Type} (e : PyErr) (s : St) : (M.raise e : M α) env s = (.error e, s) := rfl
theorem run_ofExcept {α : Type} (e : Except PyErr α) (s : St) : M.ofExcept e env s = (e, s) := by cases e <;> rfl
theorem run_ite {α : Type} (c : Prop) [Decidable c] (a b : M α) (s : St) :
    (if c then a else b) env s = if c then a env s else b env s := by split <;> rfl

/-! ### Sequencing programs that succeed -/

theorem bind_ok {α β : Type} {m : M α} {f : α → M β} {s s' : St} {b : β} (h : (m >>= f) env s = (.ok b, s')) :
    ∃ a s1, m env s = (.ok a, s1) ∧ f a env s1 = (.ok b, s') := by
  change (match m env s with | (.ok a, s) => f a env s | (.error e, s) => (.error e, s)) = _ at h
  split at h
  · next a s1 he => exact ⟨a, s1, he, h⟩
  · cases h

end Gsm
