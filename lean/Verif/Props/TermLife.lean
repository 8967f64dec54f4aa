import Verif.Lemmas.TermLife
/-! # Property C98: the terminal program from start to end -/
namespace Gsm
open Spec

variable {k : TermSetup} {old : Tty}

/-- While the program runs the console gives single characters, without editing, echo and signals; its other settings are untouched. -/
theorem C98_settings (es : List TermEvent) (h : MainPhase.Running (termRun k es { tty := old }).main) : Unbuffered k.modes old (termRun k es { tty := old }).tty := by
  rw [((life_run es life_start).running h).2]
  exact setup_unbuffered _ _

/-- On Python 2 the console has its settings back when the program has ended, however that came about. -/
theorem C98_restored (es : List TermEvent) (hp : k.py3 = false) (h : MainPhase.Over (termRun k es { tty := old }).main) : (termRun k es { tty := old }).tty = old := by
  rw [(life_run es life_start).over h, hp]; rfl

/-- On Python 3 it never has, unless it had none of the modes before: the user can no longer see what they type. -/
theorem C98_not_restored (es : List TermEvent) (hp : k.py3 = true) (h : MainPhase.Over (termRun k es { tty := old }).main) :
    Unbuffered k.modes old (termRun k es { tty := old }).tty ∧ ((∃ i, k.modes.echo.testBit i = true ∧ old.lflag.testBit i = true) → (termRun k es { tty := old }).tty ≠ old) := by
  have h1 : Unbuffered k.modes old (termRun k es { tty := old }).tty := by
    rw [(life_run es life_start).over h, hp]
    exact setup_unbuffered _ _
  refine ⟨h1, ?_⟩
  rintro ⟨i, h2, h3⟩ h4
  have := h1.cleared i (.inr (.inl h2))
  rw [h4, h3] at this
  cases this

/-- The program does not end without a reason, and its threads do not either. -/
theorem C98_reason (es : List TermEvent) (h : NoReason k es) : ¬ MainPhase.Over (termRun k es { tty := old }).main ∧
    (termRun k es { tty := old }).reader ≠ .ended ∧ (termRun k es { tty := old }).input ≠ .ended := by
  obtain ⟨h1, h2, -, -, h5⟩ := goes_run es (x := { tty := old }) ⟨by simp [MainPhase.Over], by simp, by simp, by simp, by simp⟩ h
  refine ⟨h1, h2, fun h6 => ?_⟩
  have := (h5 (by rw [h6]; simp)).2
  rw [h6] at this
  simp at this

/-- When the program has ended with "Done." the read thread has ended before. -/
theorem C98_reader_first (es : List TermEvent) (h : (termRun k es { tty := old }).main = .ended true) : (termRun k es { tty := old }).reader = .ended :=
  (life_run es life_start).done h

/-- The serial port is never closed under the read thread: from the start of that thread to its end the port is open. -/
theorem C98_port_open (es : List TermEvent) :
    ((termRun k es { tty := old }).reader = .top ∨ (termRun k es { tty := old }).reader = .reading) → (termRun k es { tty := old }).isOpen = true := by
  intro h
  have := (shut_run (k := k) es (x := { tty := old }) ⟨by simp, by simp, by simp, by simp⟩).shut
  cases hi : (termRun k es { tty := old }).isOpen with
  | true => rfl
  | false => rcases this hi with h1 | h1 <;> rw [h1] at h <;> simp at h

/-- After the port has failed while both threads run it is closed, and at most one more key is taken from the user. -/
theorem C98_port_fails_keys (es es' : List TermEvent) (hr : (termRun k es { tty := old }).reader = .reading) (hm : (termRun k es { tty := old }).main = .joining) :
    (termRun k (es ++ .rbroken :: es') { tty := old }).isOpen = false ∧ (termRun k (es ++ .rbroken :: es') { tty := old }).reader = .ended ∧
      ((termRun k (es ++ .rbroken :: es') { tty := old }).taken = (termRun k es { tty := old }).taken ∨
        ∃ c, (termRun k (es ++ .rbroken :: es') { tty := old }).taken = (termRun k es { tty := old }).taken ++ [c]) := by
  rw [termRun_append]
  have := lastKey_run (k := k) (tk := (termRun k es { tty := old }).taken) es' (x := termStep k (termRun k es { tty := old }) .rbroken) (by
    generalize termRun k es { tty := old } = x at *
    obtain ⟨tty, saved, alive, isOpen, main, input, reader, tk⟩ := x
    dsimp only at *
    subst hr hm
    exact ⟨.inl rfl, rfl, rfl, rfl, .inl rfl⟩)
  exact ⟨this.shut, this.reader, this.keys.imp id And.right⟩

/-- A key that means the end, or that leads to an exception, ends the program: no key after it is handled, and at every later moment the program
ends as soon as the read thread has come back from the port. -/
theorem C98_ends (es es' : List TermEvent) {c : PyStr} {fails : Bool} (hi : (termRun k es { tty := old }).input = .reading)
    (hm : ¬ MainPhase.Over (termRun k es { tty := old }).main) (he : keyEffect k c fails ≠ .stay) :
    (termRun k (es ++ .key c fails :: es') { tty := old }).taken = (termRun k es { tty := old }).taken ++ [c] ∧
      (termRun k (es ++ .key c fails :: es' ++ lastSteps) { tty := old }).main = .ended true := by
  have hinv := life_run es (life_start (k := k) (old := old))
  have hj : (termRun k es { tty := old }).main = .joining := by
    rcases hinv.input (by rw [hi]; simp) with h | h
    · exact h
    · exact absurd h hm
  have hr := hinv.here (.inr hj)
  have key : StoppedWith ((termRun k es { tty := old }).taken ++ [c]) (termRun k (es ++ .key c fails :: es') { tty := old }) := by
    rw [termRun_append]
    refine stopped_run es' (x := termStep k (termRun k es { tty := old }) (.key c fails)) ?_
    generalize termRun k es { tty := old } = x at *
    obtain ⟨tty, saved, alive, isOpen, main, input, reader, tk⟩ := x
    dsimp only at *
    subst hj hi
    simp only [termStep, if_true]
    cases hk : keyEffect k c fails with
    | stay => exact absurd hk he
    | exit => exact ⟨rfl, .inr ⟨rfl, rfl, by simp, hr⟩⟩
    | raises => exact ⟨rfl, .inr ⟨rfl, rfl, by simp, hr⟩⟩
  refine ⟨key.1, ?_⟩
  rw [termRun_append]
  exact last_steps key

/-- When the port fails, or a notification cannot be handled, the program ends too, at whatever moment of its start this happens. -/
theorem C98_port_fails (es es' : List TermEvent) {e : TermEvent} (he : e = .rbroken ∨ e = .rraised) (hr : (termRun k es { tty := old }).reader = .reading)
    (hm : ¬ MainPhase.Over (termRun k es { tty := old }).main) : (termRun k (es ++ e :: es' ++ [.start, .joined]) { tty := old }).main = .ended true := by
  have hinv := life_run es (life_start (k := k) (old := old))
  rw [termRun_append, termRun_append]
  refine gone_ends (gone_run es' (x := termStep k (termRun k es { tty := old }) e) ?_)
  generalize termRun k es { tty := old } = x at *
  obtain ⟨-, -, -, -, h5, -, -, -⟩ := hinv
  obtain ⟨tty, saved, alive, isOpen, main, input, reader, tk⟩ := x
  dsimp only at *
  subst hr
  cases main with
  | ended => exact absurd trivial hm
  | before => exact absurd (h5 (.inl rfl)) (by simp)
  | loaded => exact absurd (h5 (.inr rfl)) (by simp)
  | connected => rcases he with rfl | rfl <;> exact .inl ⟨rfl, .inl rfl⟩
  | joining => rcases he with rfl | rfl <;> exact .inl ⟨rfl, .inr rfl⟩

/-- On Python 2 the keys that mean the end are those of the models of the terminals: CTRL+], and in GsmTerm also CTRL+D. -/
theorem C98_keys (hp : k.py3 = false) (c : PyStr) (fails : Bool) :
    (k.raw = true → (keyEffect k c fails = .exit ↔ (({} : Raw).key c).alive = false)) ∧
    (k.raw = false → (keyEffect k c fails = .exit ↔ Term.keyOf c = some .exit)) := by
  unfold keyEffect
  rw [hp]
  constructor
  · intro hr
    simp only [hr, Bool.true_eq_false, false_and, or_false, Bool.false_eq_true, if_false]
    by_cases h : c = [29]
    · simp [h, Raw.key]
    · simp only [h, if_false]
      constructor
      · intro h1; cases fails <;> simp at h1
      · intro h1; simp only [Raw.key, if_true, h, if_false] at h1; split at h1 <;> simp at h1
  · intro hr
    simp only [hr, true_and, Bool.false_eq_true, if_false]
    by_cases h : c = [29] ∨ c = [4]
    · simp [h, Term.keyOf]
    · simp only [h, if_false]
      constructor
      · intro h1; cases fails <;> simp at h1
      · intro h1
        have : Term.keyOf c ≠ some .exit := by
          unfold Term.keyOf
          rw [if_neg h]
          iterate 12 refine ite_other (by simp) ?_
          simp
        exact absurd h1 this

/-- On Python 3 no key means the end: the first key of any kind makes the raw terminal crash (when the modem has got it), and the first printable character
GsmTerm, which ignores all others, CTRL+] and CTRL+D among them. -/
theorem C98_python3 (hp : k.py3 = true) (c : PyStr) (fails : Bool) :
    keyEffect k c fails ≠ .exit ∧ (k.raw = true → keyEffect k c fails = .raises) ∧
    (k.raw = false → (keyEffect k c fails = .raises ↔ ∃ x, c = [x] ∧ ((32 ≤ x ∧ x ≤ 126) ∨ (9 ≤ x ∧ x ≤ 13))) ∧ keyEffect k [29] fails = .stay ∧ keyEffect k [4] fails = .stay) := by
  unfold keyEffect
  rw [hp]
  simp only [if_true]
  refine ⟨?_, fun h => by rw [h]; rfl, fun h => ⟨?_, ?_, ?_⟩⟩
  · split
    · simp
    · rcases c with _ | ⟨x, _ | ⟨y, c⟩⟩ <;> simp only <;> (try split) <;> simp
  · rw [h]
    rcases c with _ | ⟨x, _ | ⟨y, c⟩⟩
    · simp
    · have : Term.isPrintable x = true ↔ (32 ≤ x ∧ x ≤ 126) ∨ (9 ≤ x ∧ x ≤ 13) := by
        simp only [Term.isPrintable, isBlank, Bool.or_eq_true, decide_eq_true_eq]; omega
      simp [← this]
    · simp
  · rw [h]; decide
  · rw [h]; decide

/-! ### Examples -/

def linuxModes : TtyModes := ⟨2, 8, 1⟩
def consoleTty : Tty := ⟨0x8A3B, 1, 0, [17664, 5, 191]⟩
/-- The program is started, "A" and CTRL+] are typed. -/
def termDay : List TermEvent := [.load, .connect true, .rcheck, .start, .check, .key [65] false, .check, .key [29] false, .rread, .rcheck, .closed, .joined]

example : termRun ⟨true, false, linuxModes⟩ termDay { tty := consoleTty } =
    { tty := consoleTty, saved := some consoleTty, alive := false, isOpen := true, main := .ended true, input := .shutting, reader := .ended, taken := [[65], [29]] } := by decide
/-- On Python 3 the program ends after the first key, without echo and line editing. -/
example : (termRun ⟨true, true, linuxModes⟩ termDay { tty := consoleTty }).main = .ended true ∧ (termRun ⟨true, true, linuxModes⟩ termDay { tty := consoleTty }).taken = [[65]] ∧
    (termRun ⟨true, true, linuxModes⟩ termDay { tty := consoleTty }).tty = { consoleTty with lflag := 0x8A30 } := by decide
example : NoReason ⟨false, false, linuxModes⟩ [.load, .connect true, .rcheck, .start, .check, .key [65] false] := by
  intro e he
  simp only [List.mem_cons, List.not_mem_nil, or_false] at he
  rcases he with rfl | rfl | rfl | rfl | rfl | rfl <;> simp [keyEffect]
/-- The port fails while the input thread waits for a key: that key is taken, and no other. -/
example : (termRun ⟨true, false, linuxModes⟩ [.load, .connect true, .rcheck, .start, .check, .rbroken, .key [65] false, .check, .key [66] false] { tty := consoleTty }).taken = [[65]] := by decide
/-- The port fails before the input thread is there. -/
example : (termRun ⟨false, false, linuxModes⟩ [.load, .connect true, .rcheck, .rbroken, .start, .joined] { tty := consoleTty }).main = .ended true := by decide

end Gsm
