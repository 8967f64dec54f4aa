import Verif.Spec.Terminal
/-! # C57: line editing in the terminal -/
namespace Gsm
open Spec Term

namespace Term
@[simp] theorem emit_buffer (l : List Out) (t : Term) : (t.emit l).inputBuffer = t.inputBuffer := rfl
@[simp] theorem emit_cursor (l : List Out) (t : Term) : (t.emit l).cursorPos = t.cursorPos := rfl

/-- What the invariant is about. -/
structure Core where
  buffer : PyStr
  cursor : Nat
  history : List PyStr
  pos : Nat
  entered : List PyStr

/-- These parts of a state. -/
def core (t : Term) : Core := ⟨t.inputBuffer, t.cursorPos, t.history, t.historyPos, t.entered⟩

@[simp] theorem core_emit (l : List Out) (t : Term) : (t.emit l).core = t.core := rfl
@[simp] theorem core_refresh (n : Nat) (t : Term) : (t.refresh n).core = t.core := rfl
@[simp] theorem core_send (s : PyStr) (t : Term) : (t.send s).core = t.core := rfl
@[simp] theorem core_remove (t : Term) : t.removePrompt.core = t.core := rfl
@[simp] theorem core_exit (t : Term) : t.exit.core = t.core := rfl

end Term

/-- The cursor is in the line, the history position is in the history, and the history has the last commands entered, at most 100. -/
def TermOk (c : Core) : Prop :=
  c.cursor ≤ c.buffer.length ∧ c.pos ≤ c.history.length ∧ c.history.length ≤ 100 ∧ c.history = (c.entered.take 100).reverse

theorem ok_notification {t : Term} (h : TermOk t.core) (lines : List PyStr) : TermOk (t.notification lines).2.core := by
  unfold notification
  cases lines with
  | nil => exact h
  | cons l ls => dsimp only; split <;> exact h

theorem ok_history {t : Term} (h : TermOk t.core) (s : PyStr) :
    (t.addToHistory s).history.length ≤ 100 ∧ (t.addToHistory s).history = ((t.addToHistory s).entered.take 100).reverse := by
  obtain ⟨_, _, h3, h4⟩ := h
  simp only [core] at h3 h4
  unfold addToHistory
  dsimp only
  have hl : t.history.length = min 100 t.entered.length := by rw [h4]; simp
  split
  · next hg =>
    simp only [List.length_append, List.length_singleton] at hg
    have : t.history.length = 100 := by omega
    refine ⟨by simp; omega, ?_⟩
    rw [List.take_succ_cons, List.reverse_cons, h4]
    have h99 : t.entered.take 100 = t.entered.take 99 ++ (t.entered.drop 99).take 1 := by
      rw [show 100 = 99 + 1 from rfl, List.take_add]
    obtain ⟨x, hx⟩ : ∃ x, (t.entered.drop 99).take 1 = [x] := by
      rw [← List.length_eq_one_iff]; simp; omega
    rw [h99, hx]
    simp
  · next hg =>
    simp only [List.length_append, List.length_singleton] at hg ⊢
    refine ⟨by omega, ?_⟩
    rw [List.take_succ_cons, List.reverse_cons, h4]
    have : t.entered.length ≤ 99 := by omega
    rw [List.take_of_length_le (by omega), List.take_of_length_le (by omega)]

theorem ok_accept {t : Term} (h : TermOk t.core) : TermOk t.accept.2.core ∧ t.accept.2.inputBuffer = [] ∧ t.accept.2.cursorPos = 0 := by
  unfold accept
  dsimp only
  split
  · have := ok_history (t := { t with inputBuffer := [], cursorPos := 0 }) ⟨Nat.le_refl 0, h.2⟩ (strip2 t.inputBuffer)
    exact ⟨⟨Nat.le_refl 0, Nat.le_refl _, this⟩, rfl, rfl⟩
  · exact ⟨⟨Nat.le_refl 0, h.2⟩, rfl, rfl⟩

theorem ok_list {t : Term} (h : TermOk t.core) : ∀ cs : List PyStr, TermOk (t.listCommands cs).2.core
  | [] => h
  | c :: cs => by
    unfold listCommands
    split
    · exact h
    · exact h
    · exact ok_list h cs

theorem ok_confirmSms {t : Term} (h : TermOk t.core) : TermOk t.confirmSms.core ∧ t.confirmSms.cursorPos = 0 :=
  ⟨⟨Nat.zero_le _, h.2⟩, rfl⟩

theorem ok_startSms {env : TermEnv} {s : PyStr} {t : Term} (h : TermOk t.core) : TermOk (startSms env s t).2.core ∧ (startSms env s t).2.cursorPos = t.cursorPos := by
  unfold startSms
  dsimp only
  split <;> exact ⟨h, rfl⟩

/-- Enter keeps the invariant, and leaves the cursor at the start of the line. -/
def Keeps (f : Term → TermStep) : Prop := ∀ t : Term, TermOk t.core → TermOk (f t).2.core ∧ ((f t).1 = .ok () → (f t).2.cursorPos = 0)

theorem ok_script {f : Term → TermStep} (hf : Keeps f) : ∀ (lines : List PyStr) (t : Term), TermOk t.core → t.cursorPos = 0 →
    TermOk (script f lines t).2.core ∧ ((script f lines t).1 = .ok () → (script f lines t).2.cursorPos = 0)
  | [], t, h, h0 => ⟨h, fun _ => h0⟩
  | line :: lines, t, h, h0 => by
    unfold script
    dsimp only
    split
    · have h1 := hf ({ t with inputBuffer := strip2 line }.refresh (strip2 line).length)
        ⟨by change t.cursorPos ≤ _; omega, h.2⟩
      generalize f _ = r at h1
      obtain ⟨r, t1⟩ := r
      cases r with
      | ok u => exact ok_script hf lines t1 h1.1 (h1.2 rfl)
      | error e => exact ⟨h1.1, (nomatch ·)⟩
    · exact ok_script hf lines t h h0

theorem ok_confirm {env : TermEnv} : ∀ n : Nat, Keeps (confirm env n)
  | 0 => fun t h => ⟨h, (nomatch ·)⟩
  | n + 1 => by
    intro t h
    unfold confirm
    split
    · exact ⟨(ok_confirmSms h).1, fun _ => rfl⟩
    · split
      · next hb => exact ⟨h, fun _ => by have := h.1; simp only [core, hb, List.length_nil, Nat.le_zero] at this; exact this⟩
      · obtain ⟨h1, _, h3⟩ := ok_accept h
        dsimp only
        generalize t.accept.2 = t1 at h1 h3 ⊢
        split
        · exact ⟨h1, fun _ => h3⟩
        · exact ⟨h1, fun _ => h3⟩
        · refine ⟨ok_list h1 _, fun _ => ?_⟩
          generalize t1.completion.keys none = cs
          induction cs with
          | nil => exact h3
          | cons c cs ih =>
            unfold listCommands
            split
            · exact h3
            · exact h3
            · exact ih
        · split
          · exact ⟨h1, fun _ => h3⟩
          · exact ok_script (ok_confirm n) _ _ h1 h3
        · exact ⟨(ok_startSms h1).1, fun _ => (ok_startSms h1).2.trans h3⟩
        · exact ⟨h1, fun _ => h3⟩
        · exact ⟨h1, fun _ => h3⟩

theorem ok_recall {t : Term} (h : TermOk t.core) : TermOk t.recall.2.core := by
  unfold recall
  split
  · exact h
  · exact ⟨Nat.le_refl _, h.2⟩

theorem ok_syntax {t : Term} (h : TermOk t.core) (c : PyStr) : TermOk (t.commandSyntax c).2.core := by
  unfold commandSyntax
  split
  · exact h
  · dsimp only; split <;> exact h
  · exact h

theorem ok_complete {t : Term} (h : TermOk t.core) : TermOk t.complete.2.core := by
  unfold complete
  dsimp only
  split
  · split
    · exact h
    · split
      · exact ok_syntax h _
      · exact h
  · split
    · exact ok_syntax h _
    · exact ⟨Nat.le_refl _, h.2⟩
  · exact ⟨Nat.le_refl _, h.2⟩

theorem ok_key {env : TermEnv} {t : Term} (h : TermOk t.core) (k : Key) : TermOk (handleKey env t k).2.core := by
  have h1 : t.cursorPos ≤ t.inputBuffer.length := h.1
  have h2 : t.historyPos ≤ t.history.length := h.2.1
  cases k with
  | exit => exact h
  | left => simp only [handleKey, cursorLeft]; split <;> first | exact ⟨Nat.le_trans (Nat.sub_le _ _) h1, h.2⟩ | exact h
  | right => simp only [handleKey, cursorRight]; split <;> first | exact ⟨‹_›, h.2⟩ | exact h
  | up => simp only [handleKey, cursorUp]; split <;> first | exact ok_recall ⟨h1, Nat.le_trans (Nat.sub_le _ _) h2, h.2.2⟩ | exact h
  | down => simp only [handleKey, cursorDown]; split <;> first | exact ok_recall ⟨h1, Nat.le_of_lt ‹_›, h.2.2⟩ | exact h
  | enter => exact (ok_confirm _ t h).1
  | tab => exact ok_complete h
  | ctrlZ => simp only [handleKey, ctrlZ]; split <;> first | exact ⟨Nat.le_refl _, h.2⟩ | exact h
  | esc => simp only [handleKey, esc]; split <;> first | exact ⟨Nat.le_refl _, h.2⟩ | exact h
  | backspace =>
    simp only [handleKey, backspace]
    split
    · refine ⟨?_, h.2⟩
      change t.cursorPos - 1 ≤ (t.inputBuffer.take (t.cursorPos - 1) ++ t.inputBuffer.drop t.cursorPos).length
      simp only [List.length_append, List.length_take, List.length_drop]
      omega
    · exact h
  | delete =>
    simp only [handleKey, delete]
    split
    · refine ⟨?_, h.2⟩
      change t.cursorPos ≤ (t.inputBuffer.take t.cursorPos ++ t.inputBuffer.drop (t.cursorPos + 1)).length
      simp only [List.length_append, List.length_take, List.length_drop]
      omega
    · exact h
  | home => exact ⟨Nat.zero_le _, h.2⟩
  | toEnd => exact ⟨Nat.le_refl _, h.2⟩

theorem ok_insert {t : Term} (h : TermOk t.core) (c : Nat) : TermOk (t.insert c).core := by
  have h1 : t.cursorPos ≤ t.inputBuffer.length := h.1
  refine ⟨?_, h.2⟩
  change t.cursorPos + 1 ≤ (t.inputBuffer.take t.cursorPos ++ c :: t.inputBuffer.drop t.cursorPos).length
  simp only [List.length_append, List.length_take, List.length_cons, List.length_drop]
  omega

theorem ok_press {env : TermEnv} {t : Term} (h : TermOk t.core) (c : PyStr) : TermOk (press env c t).2.core := by
  unfold press
  split
  · exact ok_key h _
  · split
    · dsimp only; split <;> first | exact ok_insert h _ | exact h
    · exact h

/-- Whatever happens, the cursor is in the line, the history position in the history, and the history has the last commands entered, at most 100 of them. -/
theorem C57_invariant (env : TermEnv) : ∀ (hs : List Happening) (t : Term), TermOk t.core → TermOk (session env hs t).core
  | [], _, h => h
  | x :: hs, t, h => by
    refine C57_invariant env hs (happen env t x) ?_
    unfold happen
    split
    · next c =>
      split
      · have := ok_press (env := env) h c
        split <;> (next h1 => rw [h1] at this; exact this)
      · exact h
    · split
      · exact ok_notification h _
      · exact h

/-- In particular in every session of a new terminal. -/
theorem C57_session (env : TermEnv) (hs : List Happening) (completion : Trie (Option CmdHelp)) (categories : List PyStr) :
    TermOk (session env hs (start completion categories)).core :=
  C57_invariant env hs _ ⟨Nat.le_refl _, Nat.le_refl _, Nat.zero_le _, rfl⟩

/-- The line with its cursor. -/
def lineOf (t : Term) : Line := ⟨t.inputBuffer.take t.cursorPos, t.inputBuffer.drop t.cursorPos⟩

/-- What the console sends for an edit. -/
def chunkOf : Edit → PyStr
  | .insert c => [c]
  | .left => [27, 91, 68]
  | .right => [27, 91, 67]
  | .backspace => [127]
  | .delete => [27, 91, 51, 126]
  | .home => [27, 79, 72]
  | .toEnd => [27, 79, 70]

/-- The characters that are inserted: printable ones, and blanks other than tab and line feed. -/
def Types : Edit → Prop
  | .insert c => (32 ≤ c ∧ c ≤ 126) ∨ (11 ≤ c ∧ c ≤ 13)
  | _ => True

theorem line_insert {t : Term} (h : t.cursorPos ≤ t.inputBuffer.length) (c : Nat) : lineOf (t.insert c) = (lineOf t).edit (.insert c) := by
  have hl : (t.inputBuffer.take t.cursorPos).length = t.cursorPos := by simp [h]
  have e : t.inputBuffer.take t.cursorPos ++ c :: t.inputBuffer.drop t.cursorPos = (t.inputBuffer.take t.cursorPos ++ [c]) ++ t.inputBuffer.drop t.cursorPos := by simp
  have hl' : (t.inputBuffer.take t.cursorPos ++ [c]).length = t.cursorPos + 1 := by rw [List.length_append, hl]; rfl
  change Line.mk (List.take (t.cursorPos + 1) (t.inputBuffer.take t.cursorPos ++ c :: t.inputBuffer.drop t.cursorPos)) (List.drop (t.cursorPos + 1) (t.inputBuffer.take t.cursorPos ++ c :: t.inputBuffer.drop t.cursorPos)) = _
  rw [e, List.take_append_of_le_length (by omega), List.take_of_length_le (by omega), List.drop_append_of_le_length (by omega), List.drop_of_length_le (by omega)]
  rfl

theorem key_none {c : Nat} (h : (32 ≤ c ∧ c ≤ 126) ∨ (11 ≤ c ∧ c ≤ 13)) : keyOf [c] = none ∧ isPrintable c = true := by
  constructor
  · simp only [keyOf, List.cons.injEq, and_true, List.cons_ne_self, reduceCtorEq, and_false, if_false]
    repeat rw [if_neg (by omega)]
  · simp only [isPrintable, isBlank, Bool.or_eq_true, decide_eq_true_eq]
    omega

/-- Editing keys act on the text before and after the cursor; nothing else changes. -/
theorem C57_edit (env : TermEnv) {t : Term} (h : t.cursorPos ≤ t.inputBuffer.length) (e : Edit) (he : Types e) :
    ∃ t1, press env (chunkOf e) t = (.ok (), t1) ∧ lineOf t1 = (lineOf t).edit e ∧
      t1 = { t with inputBuffer := t1.inputBuffer, cursorPos := t1.cursorPos, out := t1.out } := by
  have hl : (t.inputBuffer.take t.cursorPos).length = t.cursorPos := by simp [h]
  cases e with
  | insert c =>
    obtain ⟨h1, h2⟩ := key_none he
    refine ⟨t.insert c, ?_, line_insert h c, rfl⟩
    simp only [press, chunkOf, h1, h2, if_true]
  | left =>
    refine ⟨t.cursorLeft, rfl, ?_, ?_⟩
    · unfold cursorLeft
      split
      · next h0 =>
        have h1 : t.cursorPos - 1 < t.inputBuffer.length := by omega
        have e1 : t.inputBuffer.take t.cursorPos = t.inputBuffer.take (t.cursorPos - 1) ++ [t.inputBuffer[t.cursorPos - 1]] := by
          rw [← List.take_succ_eq_append_getElem h1]; congr 1; omega
        have e2 : t.inputBuffer.drop (t.cursorPos - 1) = t.inputBuffer[t.cursorPos - 1] :: t.inputBuffer.drop t.cursorPos := by
          rw [List.drop_eq_getElem_cons h1]; congr 2; omega
        simp only [lineOf, Line.edit, emit_buffer, emit_cursor, e1, e2, List.getLast?_concat, List.dropLast_concat]
      · next h0 =>
        have : t.cursorPos = 0 := by omega
        simp [lineOf, Line.edit, this]
    · unfold cursorLeft; split <;> rfl
  | right =>
    refine ⟨t.cursorRight, rfl, ?_, ?_⟩
    · unfold cursorRight
      split
      · next h0 =>
        simp only [lineOf, Line.edit, emit_buffer, emit_cursor, List.drop_eq_getElem_cons h0, List.take_succ_eq_append_getElem h0]
      · next h0 => simp [lineOf, Line.edit, List.drop_of_length_le (Nat.le_of_not_lt h0)]
    · unfold cursorRight; split <;> rfl
  | backspace =>
    refine ⟨t.backspace, rfl, ?_, ?_⟩
    · unfold backspace
      split
      · next h0 =>
        have hl1 : (t.inputBuffer.take (t.cursorPos - 1)).length = t.cursorPos - 1 := by simp; omega
        change Line.mk (List.take (t.cursorPos - 1) (t.inputBuffer.take (t.cursorPos - 1) ++ t.inputBuffer.drop t.cursorPos)) (List.drop (t.cursorPos - 1) (t.inputBuffer.take (t.cursorPos - 1) ++ t.inputBuffer.drop t.cursorPos)) = _
        rw [List.take_append_of_le_length (by omega), List.take_of_length_le (by omega), List.drop_append_of_le_length (by omega), List.drop_of_length_le (by omega)]
        simp only [lineOf, Line.edit, List.dropLast_eq_take, hl, List.take_take, List.nil_append]
        congr 2; omega
      · next h0 =>
        have : t.cursorPos = 0 := by omega
        simp [lineOf, Line.edit, this]
    · unfold backspace; split <;> rfl
  | delete =>
    refine ⟨t.delete, rfl, ?_, ?_⟩
    · unfold delete
      split
      · next h0 =>
        change Line.mk (List.take t.cursorPos (t.inputBuffer.take t.cursorPos ++ t.inputBuffer.drop (t.cursorPos + 1))) (List.drop t.cursorPos (t.inputBuffer.take t.cursorPos ++ t.inputBuffer.drop (t.cursorPos + 1))) = _
        rw [List.take_append_of_le_length (by omega), List.take_of_length_le (by omega), List.drop_append_of_le_length (by omega), List.drop_of_length_le (by omega)]
        simp only [lineOf, Line.edit, List.nil_append, List.tail_drop]
      · next h0 => simp [lineOf, Line.edit, List.drop_of_length_le (Nat.le_of_not_lt h0)]
    · unfold delete; split <;> rfl
  | home => exact ⟨t.home, rfl, by simp [home, lineOf, Line.edit, refresh], rfl⟩
  | toEnd => exact ⟨t.toEnd, rfl, by simp [toEnd, lineOf, Line.edit, refresh], rfl⟩

/-- A chunk of several characters that is not a key (for example pasted text) is ignored. -/
theorem C57_paste_lost (env : TermEnv) (t : Term) {c : PyStr} (h1 : c.length ≠ 1) (h2 : keyOf c = none) : press env c t = (.ok (), t) := by
  unfold press
  rw [h2]
  dsimp only
  split
  · exact absurd rfl h1
  · rfl

/-- Up shows the previous command, down the next one; there is no way back to a new line. -/
theorem C57_up (env : TermEnv) {t : Term} (h : TermOk t.core) {p : Nat} (hp : t.historyPos = p + 1) :
    ∃ t1 c, press env [27, 91, 65] t = (.ok (), t1) ∧ t.history[p]? = some c ∧ t1.inputBuffer = c ∧ t1.cursorPos = c.length ∧ t1.historyPos = p ∧ t1.history = t.history := by
  have h1 : t.historyPos ≤ t.history.length := h.2.1
  have h2 : t.history[p]? = some t.history[p] := List.getElem?_eq_getElem (by omega)
  refine ⟨{ t with historyPos := p, inputBuffer := t.history[p], cursorPos := t.history[p].length }.refresh t.inputBuffer.length, _, ?_, h2, rfl, rfl, rfl, rfl⟩
  change t.cursorUp = _
  simp only [cursorUp, hp, Nat.zero_lt_succ, if_true, Nat.add_sub_cancel, recall, h2]

/-- Backspace and left at the beginning, delete and right at the end do nothing, not even on the screen. -/
theorem C57_at_the_ends (env : TermEnv) {t : Term} :
    (t.cursorPos = 0 → press env [127] t = (.ok (), t) ∧ press env [27, 91, 68] t = (.ok (), t)) ∧
    (t.cursorPos = t.inputBuffer.length → press env [27, 91, 51, 126] t = (.ok (), t) ∧ press env [27, 91, 67] t = (.ok (), t)) := by
  refine ⟨fun h => ⟨?_, ?_⟩, fun h => ⟨?_, ?_⟩⟩ <;> simp [press, keyOf, handleKey, backspace, delete, cursorLeft, cursorRight, h]

theorem C57_up_first (env : TermEnv) {t : Term} (hp : t.historyPos = 0) : press env [27, 91, 65] t = (.ok (), t) := by
  change t.cursorUp = _
  simp [cursorUp, hp]

theorem C57_down (env : TermEnv) {t : Term} (hp : t.historyPos + 1 < t.history.length) :
    ∃ t1 c, press env [27, 91, 66] t = (.ok (), t1) ∧ t.history[t.historyPos + 1]? = some c ∧ t1.inputBuffer = c ∧ t1.cursorPos = c.length ∧
      t1.historyPos = t.historyPos + 1 ∧ t1.history = t.history := by
  have h2 := List.getElem?_eq_getElem hp
  refine ⟨{ t with historyPos := t.historyPos + 1, inputBuffer := t.history[t.historyPos + 1], cursorPos := t.history[t.historyPos + 1].length }.refresh t.inputBuffer.length, _, ?_, h2, rfl, rfl, rfl, rfl⟩
  change t.cursorDown = _
  simp only [cursorDown, hp, if_true, recall, h2]

theorem C57_down_last (env : TermEnv) {t : Term} (hp : t.history.length ≤ t.historyPos + 1) : press env [27, 91, 66] t = (.ok (), t) := by
  change t.cursorDown = _
  simp [cursorDown, Nat.not_lt.2 hp]

/-- Pressing up `k` times shows the command `k` places back. -/
theorem C57_recall (env : TermEnv) : ∀ (k : Nat) {t : Term}, TermOk t.core → t.alive = true → k < t.historyPos →
    ∃ t1 c, session env (List.replicate (k + 1) (.key [27, 91, 65])) t = t1 ∧ t.history[t.historyPos - (k + 1)]? = some c ∧ lineOf t1 = ⟨c, []⟩ ∧
      t1.historyPos = t.historyPos - (k + 1) ∧ t1.history = t.history
  | k, t, h, ha, hk => by
    obtain ⟨p, hp⟩ : ∃ p, t.historyPos = p + 1 := ⟨t.historyPos - 1, by omega⟩
    obtain ⟨t1, c, h1, h2, h3, h4, h5, h6⟩ := C57_up env h hp
    have hs : happen env t (.key [27, 91, 65]) = t1 := by simp only [happen, ha, if_true, h1]
    have hok : TermOk t1.core := by have := ok_press (env := env) h [27, 91, 65]; rw [h1] at this; exact this
    have ha1 : t1.alive = true := by
      have : (press env [27, 91, 65] t).2.alive = t.alive := by
        change t.cursorUp.2.alive = _
        unfold cursorUp recall
        split
        · dsimp only; split <;> rfl
        · rfl
      rw [h1] at this
      exact this.trans ha
    cases k with
    | zero =>
      refine ⟨t1, c, hs, by rw [hp]; exact h2, ?_, by omega, h6⟩
      simp [lineOf, h3, h4]
    | succ k =>
      obtain ⟨t2, d, e1, e2, e3, e4, e5⟩ := C57_recall env k hok ha1 (by omega)
      refine ⟨t2, d, ?_, ?_, e3, by omega, e5.trans h6⟩
      · rw [List.replicate_succ, session, List.foldl_cons, hs]
        exact e1
      · rw [← h6, show t.historyPos - (k + 1 + 1) = t1.historyPos - (k + 1) by omega]
        exact e2

/-- A line that is sent to the modem as it is: not a request for help, for a list of commands or for a script, and not `AT+CMGS`. -/
def PlainCommand (s : PyStr) : Prop :=
  s ≠ [] ∧ ¬ (2 < s.length ∧ [63] <+: s) ∧ ¬ (2 < s.length ∧ [63, 63] <:+ s) ∧
    ∀ w ∈ [py!"help", py!"ls", py!"load", py!"at+cmgs="], ¬ w <+: lower2 s

theorem kind_plain {s : PyStr} (h : PlainCommand s) (cats : List PyStr) : kindOf cats s = .command := by
  obtain ⟨h0, h1, h2, h3⟩ := h
  have hh : ¬ (2 < s.length ∧ s.head? = some 63) := by
    rintro ⟨a, b⟩
    refine h1 ⟨a, ?_⟩
    cases s with
    | nil => cases b
    | cons x r => cases b; exact ⟨r, rfl⟩
  have e1 := h3 py!"help" (by simp)
  have e2 := h3 py!"ls" (by simp)
  have e3 := h3 py!"load" (by simp)
  have e4 := h3 py!"at+cmgs=" (by simp)
  have e5 : lower2 s ≠ py!"lscat" := fun h => e2 (by rw [h]; exact ⟨_, rfl⟩)
  have e6 : lower2 s ≠ py!"ls" := fun h => e2 (by rw [h]; exact ⟨_, rfl⟩)
  unfold kindOf
  dsimp only
  rw [if_neg hh, if_neg h2, if_neg e1, if_neg e5, if_neg e6, if_neg (fun h => e2 h.1), if_neg (fun h => e3 h.1), if_neg h0, if_neg e4]

theorem history_last (t : Term) (s : PyStr) : (t.addToHistory s).history.getLast? = some s := by
  unfold addToHistory
  dsimp only
  split
  · next hg =>
    simp only [List.length_append, List.length_singleton] at hg
    rw [List.drop_append_of_le_length (by omega)]
    simp
  · simp

theorem accept_text {t : Term} (h : strip2 t.inputBuffer ≠ []) : t.accept.2.sent = t.sent ∧ lineOf t.accept.2 = ⟨[], []⟩ ∧
    t.accept.2.history.getLast? = some (strip2 t.inputBuffer) ∧ t.accept.2.historyPos = t.accept.2.history.length ∧
    t.accept.2.entered = strip2 t.inputBuffer :: t.entered := by
  have : t.accept.2 = { { t with inputBuffer := [], cursorPos := 0 }.addToHistory (strip2 t.inputBuffer) with historyPos := ({ t with inputBuffer := [], cursorPos := 0 }.addToHistory (strip2 t.inputBuffer)).history.length } :=
    if_pos h
  rw [this]
  exact ⟨rfl, rfl, history_last _ _, rfl, rfl⟩

theorem enter_press (env : TermEnv) (t : Term) : press env [10] t = confirm env env.depth t := rfl

theorem confirm_plain (env : TermEnv) (n : Nat) {t : Term} (hs : t.typingSms = false) (hp : PlainCommand (strip2 t.inputBuffer)) :
    confirm env (n + 1) t = (.ok (), ((t.accept.2.send (strip2 t.inputBuffer)).send [13]).emit [.newline]) := by
  have hb : t.inputBuffer ≠ [] := by
    rintro hb
    exact hp.1 (by rw [hb]; rfl)
  have ha : t.accept.1 = strip2 t.inputBuffer := rfl
  have hk := kind_plain hp t.accept.2.categories
  rw [← ha] at hk
  rw [confirm, if_neg (by simp [hs]), if_neg hb]
  dsimp only
  rw [hk, ha]

/-- Enter sends a command, without the blanks around it and with a carriage return, and puts it at the end of the history. -/
theorem C57_command (env : TermEnv) (hd : 0 < env.depth) {t : Term} (hs : t.typingSms = false) (hp : PlainCommand (strip2 t.inputBuffer)) :
    ∃ t1, press env [10] t = (.ok (), t1) ∧ t1.sent = [13] :: strip2 t.inputBuffer :: t.sent ∧ lineOf t1 = ⟨[], []⟩ ∧
      t1.history.getLast? = some (strip2 t.inputBuffer) ∧ t1.historyPos = t1.history.length ∧ t1.entered = strip2 t.inputBuffer :: t.entered := by
  obtain ⟨n, hn⟩ : ∃ n, env.depth = n + 1 := ⟨env.depth - 1, by omega⟩
  obtain ⟨h3, h4, h5, h6, h7⟩ := accept_text hp.1
  rw [enter_press, hn, confirm_plain env n hs hp]
  generalize strip2 t.inputBuffer = s at *
  generalize t.accept.2 = t2 at *
  exact ⟨_, rfl, by simp only [emit, send, h3], h4, h5, h6, h7⟩

/-- A line of blanks, or an empty one, sends nothing and is not put into the history. -/
theorem C57_blank (env : TermEnv) (hd : 0 < env.depth) {t : Term} (hs : t.typingSms = false) (hp : strip2 t.inputBuffer = []) :
    ∃ t1, press env [10] t = (.ok (), t1) ∧ t1.sent = t.sent ∧ t1.history = t.history ∧ t1.historyPos = t.historyPos ∧ t1.inputBuffer = [] := by
  obtain ⟨n, hn⟩ : ∃ n, env.depth = n + 1 := ⟨env.depth - 1, by omega⟩
  change ∃ t1, confirm env env.depth t = _ ∧ _
  rw [hn]
  unfold confirm
  simp only [hs, Bool.false_eq_true, if_false]
  split
  · next hb => exact ⟨_, rfl, rfl, rfl, rfl, hb⟩
  · have ha : t.accept = ([], { t with inputBuffer := [], cursorPos := 0 }) := by
      simp only [accept, hp, ne_eq, not_true_eq_false, if_false]
    rw [ha]
    exact ⟨_, rfl, rfl, rfl, rfl, rfl⟩

/-- A terminal with two commands, and a modem that gives the prompt for messages. -/
def demoTerm : Term := start (trieOf [.set py!"AT+CSQ" (some ⟨py!"N", py!"Q", true⟩), .set py!"AT+CMGS" (some ⟨py!"S", py!"M", false⟩)]) [py!"N", py!"S"]
def demoEnv : TermEnv := ⟨fun _ => .lines [py!"> "], fun f => if f = py!"x" then some [py!"# c", py!"ATI", py!"load y"] else none, 10⟩
/-- Keys for a text. -/
def typed (s : PyStr) : List Happening := s.map fun c => .key [c]

example : (session demoEnv (typed py!" ATZ ") demoTerm).inputBuffer = py!" ATZ " := by decide +kernel
example : (session demoEnv (typed (py!" ATZ " ++ [10])) demoTerm).sent = [py!"\r", py!"ATZ"] := by decide +kernel
example : lineOf (session demoEnv (typed py!"ATX" ++ [.key [27, 91, 68], .key [127], .key [73]]) demoTerm) = ⟨py!"AI", py!"X"⟩ := by decide +kernel
example : (session demoEnv (typed (py!"ATI" ++ [10] ++ py!"ATZ" ++ [10]) ++ [.key [27, 91, 65], .key [27, 91, 65]]) demoTerm).inputBuffer = py!"ATI" := by decide +kernel
example : (session demoEnv (typed (py!"load x" ++ [10])) demoTerm).history = [py!"load x", py!"ATI", py!"load y"] := by decide +kernel
example : (press demoEnv py!"ATI" demoTerm).2.inputBuffer = [] := by decide +kernel
example : (session demoEnv (List.replicate 120 (typed (py!"A" ++ [10]))).flatten demoTerm).history.length = 100 := by decide +kernel
example : PlainCommand py!"ATZ" := by
  refine ⟨by decide, by decide, by decide, ?_⟩
  decide

end Gsm
