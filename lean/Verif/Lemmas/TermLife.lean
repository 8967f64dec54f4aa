import Verif.Spec.TermLife
/-! # Lemmas: the terminal program from start to end -/
namespace Gsm
open Spec

theorem ite_other {α : Type} {p : Prop} [Decidable p] {a b e : α} (ha : a ≠ e) (hb : b ≠ e) : (if p then a else b) ≠ e := by
  split
  · exact ha
  · exact hb

theorem testBit_andNot (n m i : Nat) : (andNot n m).testBit i = (n.testBit i && !m.testBit i) := by
  unfold andNot
  rw [Nat.testBit_xor, Nat.testBit_and]
  cases n.testBit i <;> cases m.testBit i <;> rfl

theorem setup_unbuffered (m : TtyModes) (t : Tty) : Unbuffered m t (setupTty m t) where
  cleared i h := by
    simp only [setupTty, testBit_andNot]
    rcases h with h | h | h <;> simp [h]
  kept i h := by
    simp only [not_or, Bool.not_eq_true] at h
    simp [setupTty, testBit_andNot, h.1, h.2.1, h.2.2]
  vmin := rfl
  vtime := rfl
  others := rfl

/-- What always holds. -/
structure LifeInv (k : TermSetup) (old : Tty) (x : TermLife) : Prop where
  before : x.main = .before → x.tty = old ∧ x.saved = none
  running : MainPhase.Running x.main → x.saved = some old ∧ x.tty = setupTty k.modes old
  over : MainPhase.Over x.main → x.tty = if k.py3 then setupTty k.modes old else old
  done : x.main = .ended true → x.reader = .ended
  early : x.main = .before ∨ x.main = .loaded → x.reader = .absent
  here : x.main = .connected ∨ x.main = .joining → x.reader ≠ .absent
  input : x.input ≠ .absent → x.main = .joining ∨ MainPhase.Over x.main
  closing : x.input = .closing ∨ x.input = .shutting ∨ x.input = .ended → x.alive = false

variable {k : TermSetup} {old : Tty}

theorem life_start : LifeInv k old { tty := old } := by
  constructor <;> simp [MainPhase.Running, MainPhase.Over]

theorem life_step {x : TermLife} (h : LifeInv k old x) (e : TermEvent) : LifeInv k old (termStep k x e) := by
  obtain ⟨h1, h2, h3, h4, h5, h6, h7, h8⟩ := h
  obtain ⟨tty, saved, alive, isOpen, main, input, reader, taken⟩ := x
  dsimp only at *
  cases main with
  | ended b => exact ⟨h1, h2, h3, h4, h5, h6, h7, h8⟩
  | before =>
    have hin : input = .absent := by
      cases input <;> first | rfl | (have := h7 (by simp); simp [MainPhase.Over] at this)
    have hr := h5 (.inl rfl)
    subst hin hr
    obtain ⟨rfl, rfl⟩ := h1 rfl
    cases e <;> simp only [termStep, if_true, reduceCtorEq, false_and, and_false, if_false] <;> constructor <;> simp_all [MainPhase.Running, MainPhase.Over]
  | loaded =>
    have hin : input = .absent := by
      cases input <;> first | rfl | (have := h7 (by simp); simp [MainPhase.Over] at this)
    have hr := h5 (.inr rfl)
    subst hin hr
    obtain ⟨rfl, rfl⟩ := h2 trivial
    cases e with
    | connect w => cases w <;> constructor <;> simp_all [termStep, TermLife.finish, MainPhase.Running, MainPhase.Over]
    | _ => simp only [termStep, if_true, reduceCtorEq, false_and, and_false, if_false]; constructor <;> simp_all [MainPhase.Running, MainPhase.Over]
  | connected =>
    have hin : input = .absent := by
      cases input <;> first | rfl | (have := h7 (by simp); simp [MainPhase.Over] at this)
    have hr := h6 (.inl rfl)
    subst hin
    obtain ⟨rfl, rfl⟩ := h2 trivial
    cases e <;> cases reader <;> simp only [termStep, if_true, reduceCtorEq, false_and, and_false, if_false] <;> constructor <;>
      simp_all [MainPhase.Running, MainPhase.Over] <;> cases alive <;> simp
  | joining =>
    have hr := h6 (.inr rfl)
    obtain ⟨rfl, rfl⟩ := h2 trivial
    cases e with
    | key c f =>
      simp only [termStep]
      split
      · cases keyEffect k c f <;> constructor <;> simp_all [MainPhase.Running, MainPhase.Over]
      · constructor <;> simp_all [MainPhase.Running, MainPhase.Over]
    | check =>
      simp only [termStep]
      split
      · cases alive <;> constructor <;> simp_all [MainPhase.Running, MainPhase.Over]
      · exact ⟨h1, h2, h3, h4, h5, h6, h7, h8⟩
    | rcheck =>
      simp only [termStep]
      split
      · cases alive <;> constructor <;> simp_all [MainPhase.Running, MainPhase.Over]
      · exact ⟨h1, h2, h3, h4, h5, h6, h7, h8⟩
    | joined =>
      simp only [termStep]
      split
      · constructor <;> simp_all [TermLife.finish, MainPhase.Running, MainPhase.Over]
      · exact ⟨h1, h2, h3, h4, h5, h6, h7, h8⟩
    | load | connect _ | start =>
      simp only [termStep, reduceCtorEq, if_false]
      exact ⟨h1, h2, h3, h4, h5, h6, h7, h8⟩
    | closed | shut | rread | rbroken | rraised =>
      simp only [termStep]
      split
      · constructor <;> simp_all [MainPhase.Running, MainPhase.Over]
      · exact ⟨h1, h2, h3, h4, h5, h6, h7, h8⟩

theorem life_run (es : List TermEvent) : ∀ {x : TermLife}, LifeInv k old x → LifeInv k old (termRun k es x) := by
  induction es with
  | nil => exact id
  | cons e es ih => intro x h; exact ih (life_step h e)

/-- The input thread takes no more keys, and the read thread will end. -/
def Stopping (x : TermLife) : Prop := x.main = .joining ∧ x.alive = false ∧ x.input ≠ .reading ∧ x.reader ≠ .absent

/-- The program has ended, or it is about to. -/
def StoppedWith (taken : List PyStr) (x : TermLife) : Prop := x.taken = taken ∧ (x.main = .ended true ∨ Stopping x)

theorem stopped_step {taken : List PyStr} {x : TermLife} (h : StoppedWith taken x) (e : TermEvent) : StoppedWith taken (termStep k x e) := by
  obtain ⟨tty, saved, alive, isOpen, main, input, reader, tk⟩ := x
  obtain ⟨h0, h | ⟨h1, h2, h3, h4⟩⟩ := h <;> dsimp only at *
  · subst h; exact ⟨h0, .inl rfl⟩
  · subst h1 h2 h0
    cases e <;> simp only [termStep, reduceCtorEq, if_false, h3] <;> (try split) <;> simp_all [StoppedWith, Stopping, TermLife.finish]

theorem stopped_run {taken : List PyStr} (es : List TermEvent) : ∀ {x : TermLife}, StoppedWith taken x → StoppedWith taken (termRun k es x) := by
  induction es with
  | nil => exact id
  | cons e es ih => intro x h; exact ih (stopped_step h e)

theorem last_steps {taken : List PyStr} {x : TermLife} (h : StoppedWith taken x) : (termRun k lastSteps x).main = .ended true := by
  obtain ⟨tty, saved, alive, isOpen, main, input, reader, tk⟩ := x
  obtain ⟨h0, h | ⟨h1, h2, h3, h4⟩⟩ := h <;> dsimp only at *
  · subst h; rfl
  · subst h1 h2
    cases reader <;> first | exact absurd rfl h4 | rfl

/-- The read thread has ended. -/
def ReaderGone (x : TermLife) : Prop := x.reader = .ended ∧ (x.main = .connected ∨ x.main = .joining) ∨ x.main = .ended true

theorem gone_step {x : TermLife} (h : ReaderGone x) (e : TermEvent) : ReaderGone (termStep k x e) := by
  obtain ⟨tty, saved, alive, isOpen, main, input, reader, tk⟩ := x
  rcases h with ⟨h1, h | h⟩ | h <;> dsimp only at *
  · subst h h1
    cases e <;> simp only [termStep, reduceCtorEq, if_false, if_true, false_and] <;> (try split) <;> (try split) <;> simp_all [ReaderGone, TermLife.finish]
  · subst h h1
    cases e <;> simp only [termStep, reduceCtorEq, if_false, if_true, true_and] <;> (try split) <;> (try split) <;> simp_all [ReaderGone, TermLife.finish]
  · subst h; exact .inr rfl

theorem gone_run (es : List TermEvent) : ∀ {x : TermLife}, ReaderGone x → ReaderGone (termRun k es x) := by
  induction es with
  | nil => exact id
  | cons e es ih => intro x h; exact ih (gone_step h e)

theorem gone_ends {x : TermLife} (h : ReaderGone x) : (termRun k [.start, .joined] x).main = .ended true := by
  obtain ⟨tty, saved, alive, isOpen, main, input, reader, tk⟩ := x
  rcases h with ⟨h1, h | h⟩ | h <;> dsimp only at *
  · subst h h1; rfl
  · subst h h1; rfl
  · subst h; rfl

/-- Everything goes on. -/
def GoesOn (x : TermLife) : Prop := ¬ MainPhase.Over x.main ∧ x.reader ≠ .ended ∧ (x.main = .connected ∨ x.main = .joining → x.alive = true) ∧ (x.reader ≠ .absent → x.alive = true) ∧
  (x.input ≠ .absent → x.alive = true ∧ (x.input = .top ∨ x.input = .reading))

theorem goes_step {x : TermLife} {e : TermEvent} (h : GoesOn x) (he : NoReason k [e]) : GoesOn (termStep k x e) := by
  obtain ⟨tty, saved, alive, isOpen, main, input, reader, tk⟩ := x
  obtain ⟨h1, h2, h3, h4, h5⟩ := h
  obtain ⟨n1, n2, n3, n4⟩ := he e List.mem_cons_self
  dsimp only at *
  cases main with
  | ended => exact absurd trivial h1
  | _ =>
    cases e with
    | connect w =>
      cases w with
      | false => exact absurd rfl n1
      | true => simp only [termStep]; (try split) <;> simp_all [GoesOn, MainPhase.Over]
    | rbroken => exact absurd rfl n2
    | rraised => exact absurd rfl n3
    | key c f =>
      simp only [termStep, n4 c f rfl]
      split <;> simp_all [GoesOn, MainPhase.Over]
    | _ => simp only [termStep] <;> (try split) <;> simp_all [GoesOn, MainPhase.Over]

theorem goes_run (es : List TermEvent) : ∀ {x : TermLife}, GoesOn x → NoReason k es → GoesOn (termRun k es x) := by
  induction es with
  | nil => intro x h _; exact h
  | cons e es ih =>
    intro x h hn
    exact ih (goes_step h fun e' he' => hn e' (by rw [List.mem_singleton.1 he']; exact List.mem_cons_self)) fun e' he' => hn e' (List.mem_cons_of_mem _ he')

theorem termRun_append (es es' : List TermEvent) (x : TermLife) : termRun k (es ++ es') x = termRun k es' (termRun k es x) := List.foldl_append

/-- Where the port has been closed the read thread is not, or no longer. -/
structure ShutInv (x : TermLife) : Prop where
  input : x.input ≠ .absent → x.main = .joining ∨ MainPhase.Over x.main
  shutting : x.input = .shutting → x.reader = .ended
  shut : x.isOpen = false → x.reader = .absent ∨ x.reader = .ended
  early : x.reader = .absent → x.isOpen = false

theorem shut_step {x : TermLife} (h : ShutInv x) (e : TermEvent) : ShutInv (termStep k x e) := by
  obtain ⟨h0, h1, h2, h3⟩ := h
  obtain ⟨tty, saved, alive, isOpen, main, input, reader, taken⟩ := x
  dsimp only at *
  cases main with
  | ended b => exact ⟨h0, h1, h2, h3⟩
  | _ =>
    cases e with
    | key c f =>
      simp only [termStep]
      split
      · cases keyEffect k c f <;> constructor <;> simp_all [MainPhase.Over]
      · exact ⟨h0, h1, h2, h3⟩
    | connect w =>
      cases w <;> constructor <;> cases input <;> simp_all [termStep, TermLife.finish, MainPhase.Over]
    | check | rcheck =>
      simp only [termStep]
      split
      · cases alive <;> constructor <;> simp_all [MainPhase.Over]
      · exact ⟨h0, h1, h2, h3⟩
    | _ =>
      simp only [termStep]
      split
      · constructor <;> simp_all [TermLife.finish, MainPhase.Over]
      · exact ⟨h0, h1, h2, h3⟩

theorem shut_run (es : List TermEvent) : ∀ {x : TermLife}, ShutInv x → ShutInv (termRun k es x) := by
  induction es with
  | nil => exact id
  | cons e es ih => intro x h; exact ih (shut_step h e)

/-- The port is gone: it is closed, and at most the key that the input thread waits for is still taken. -/
structure LastKey (tk : List PyStr) (x : TermLife) : Prop where
  main : x.main = .joining ∨ MainPhase.Over x.main
  dead : x.alive = false
  shut : x.isOpen = false
  reader : x.reader = .ended
  keys : x.taken = tk ∨ x.input ≠ .reading ∧ ∃ c, x.taken = tk ++ [c]

theorem lastKey_step {tk : List PyStr} {x : TermLife} (h : LastKey tk x) (e : TermEvent) : LastKey tk (termStep k x e) := by
  obtain ⟨h1, h2, h3, h4, h5⟩ := h
  obtain ⟨tty, saved, alive, isOpen, main, input, reader, taken⟩ := x
  dsimp only at *
  subst h2 h3 h4
  cases main with
  | ended b => exact ⟨h1, rfl, rfl, rfl, h5⟩
  | before | loaded | connected => rcases h1 with h1 | h1 <;> simp [MainPhase.Over] at h1
  | joining =>
    cases e with
    | key c f =>
      simp only [termStep]
      split
      · next hi =>
        have h6 : taken = tk := by
          rcases h5 with h5 | h5
          · exact h5
          · exact absurd hi h5.1
        subst h6
        cases keyEffect k c f <;> exact ⟨.inl rfl, rfl, rfl, rfl, .inr ⟨by simp, c, rfl⟩⟩
      · exact ⟨h1, rfl, rfl, rfl, h5⟩
    | _ =>
      simp only [termStep]
      first
        | exact ⟨h1, rfl, rfl, rfl, h5⟩
        | (split
           · constructor <;> simp_all [TermLife.finish, MainPhase.Over]
           · exact ⟨h1, rfl, rfl, rfl, h5⟩)

theorem lastKey_run {tk : List PyStr} (es : List TermEvent) : ∀ {x : TermLife}, LastKey tk x → LastKey tk (termRun k es x) := by
  induction es with
  | nil => exact id
  | cons e es ih => intro x h; exact ih (lastKey_step h e)

end Gsm
