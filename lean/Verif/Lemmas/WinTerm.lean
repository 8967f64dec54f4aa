import Verif.Spec.WinTerm
import Verif.Props.Terminal
/-! # Lemmas about the terminal on Windows -/
namespace Gsm
open Spec Term

theorem winKeys_char {c : Nat} (h0 : c ≠ 0) (h1 : c ≠ 0xe0) (rest : List Nat) : winKeys (c :: rest) = [if c = 13 then 10 else c] :: winKeys rest := by
  cases rest with
  | nil => simp [winKeys, h0, h1]
  | cons b r => rw [winKeys, if_neg h1, if_neg h0]

theorem winKeyOf_char (x : Nat) : winKeyOf [x] = keyOf [x] := by
  unfold winKeyOf keyOf
  simp

theorem press_char (env : TermEnv) (t : Term) (x : Nat) : winPress env [x] t = press env [x] t := by
  unfold winPress press
  rw [winKeyOf_char]
  rfl

/-- One key. -/
theorem win_stroke (env : TermEnv) (t : Term) (k : Stroke) (c : PyStr) (hc : k.console = some c) :
    winHappen env t c = match k.posix with | some p => happen env t (.key p) | none => t := by
  cases k with
  | char x =>
    cases hc
    simp only [Stroke.posix, winHappen, happen, press_char]
    rfl
  | function code => cases hc
  | special code =>
    cases hc
    unfold Stroke.posix
    by_cases h1 : code = 0x48
    · subst h1; rfl
    · by_cases h2 : code = 0x50
      · subst h2; rfl
      · by_cases h3 : code = 0x4d
        · subst h3; rfl
        · by_cases h4 : code = 0x4b
          · subst h4; rfl
          · simp only [if_neg h1, if_neg h2, if_neg h3, if_neg h4]
            have : winKeyOf [0xe0, code] = none := by
              unfold winKeyOf
              simp [h1, h2, h3, h4]
            simp only [winHappen, winPress, this]
            split <;> rfl

theorem typed_bytes : ∀ l : List Nat, (l.map Stroke.char).flatMap Stroke.bytes = l
  | [] => rfl
  | c :: l => by rw [List.map_cons, List.flatMap_cons, typed_bytes l]; rfl

/-- The output has no moves of the cursor. -/
def Still (out : List Out) : Prop := ∀ o ∈ out, o ≠ .right ∧ ∀ n, o = .left n → n = 0

theorem still_col : ∀ {out : List Out}, Still out → (screenOf out).col ≤ (screenOf out).row.length
  | [], _ => Nat.le_refl _
  | o :: out, h => by
    have ih := still_col (out := out) (fun x hx => h x (by simp [hx]))
    obtain ⟨h1, h2⟩ := h o (by simp)
    rw [show screenOf (o :: out) = (screenOf out).put o from rfl]
    cases o with
    | right => exact absurd rfl h1
    | left n => cases h2 n rfl; exact ih
    | cr => exact Nat.zero_le _
    | newline => exact Nat.le_refl _
    | page => exact Nat.le_refl _
    | text x =>
      simp only [Screen.put, List.length_append, List.length_take, List.length_drop, List.length_replicate]
      omega

/-- The cursor is at the end of the line, and was never moved. -/
def CursorAtEnd (t : Term) : Prop := t.cursorPos = t.inputBuffer.length ∧ Still t.out

theorem still_emit {t : Term} {l : List Out} (h : Still t.out) (hl : Still l) : Still (t.emit l).out := by
  intro o ho
  simp only [emit, List.mem_append, List.mem_reverse] at ho
  rcases ho with ho | ho
  · exact hl o ho
  · exact h o ho

theorem still_refresh {t : Term} {n : Nat} (h : Still t.out) (hn : (if 0 < n then n else t.inputBuffer.length) ≤ t.cursorPos) : Still (t.refresh n).out := by
  refine still_emit h ?_
  intro o ho
  simp only [List.mem_cons, List.not_mem_nil, or_false] at ho
  rcases ho with rfl | rfl | rfl | rfl | rfl
  · exact ⟨by simp, by simp⟩
  · exact ⟨by simp, by simp⟩
  · exact ⟨by simp, by simp⟩
  · exact ⟨by simp, by simp⟩
  · refine ⟨by simp, fun k hk => ?_⟩
    injection hk with hk
    omega

theorem still_page : Still [.page] := by intro o ho; simp only [List.mem_singleton] at ho; subst ho; exact ⟨by simp, by simp⟩
theorem still_newline : Still [.newline] := by intro o ho; simp only [List.mem_singleton] at ho; subst ho; exact ⟨by simp, by simp⟩

/-- The keys that leave the cursor at the end: characters, Enter, the tabulator, CTRL+Z, ESC and those that end the terminal. -/
def Forward (c : PyStr) : Prop := ∃ x, c = [x] ∧ x ≠ 127

theorem atEnd_fresh {t : Term} {n : Nat} (h : Still t.out) (hc : t.cursorPos = t.inputBuffer.length) (hn : n ≤ t.inputBuffer.length) : CursorAtEnd (t.refresh n) :=
  ⟨hc, still_refresh h (by split <;> omega)⟩

theorem atEnd_syntax {t : Term} (h : CursorAtEnd t) (c : PyStr) : CursorAtEnd (t.commandSyntax c).2 := by
  unfold commandSyntax
  split
  · exact h
  · dsimp only
    split
    · exact atEnd_fresh (t := t.emit [.page]) (still_emit h.2 still_page) h.1 (Nat.le_refl _)
    · exact h
  · exact h

theorem atEnd_complete {t : Term} (h : CursorAtEnd t) : CursorAtEnd t.complete.2 := by
  unfold complete
  dsimp only
  split
  · split
    · exact h
    · split
      · exact atEnd_syntax h _
      · exact h
  · split
    · exact atEnd_syntax h _
    · exact atEnd_fresh (t := { t with inputBuffer := _, cursorPos := _ }) h.2 rfl (Nat.le_refl _)
  · refine atEnd_fresh (t := ({ t with inputBuffer := _, cursorPos := _ } : Term).emit [.newline, .page]) (still_emit h.2 ?_) rfl (Nat.le_refl _)
    intro o ho
    simp only [List.mem_cons, List.not_mem_nil, or_false] at ho
    rcases ho with rfl | rfl <;> exact ⟨by simp, by simp⟩

theorem atEnd_list {t : Term} (h : CursorAtEnd t) : ∀ cs, CursorAtEnd (t.listCommands cs).2
  | [] => atEnd_fresh (t := t.emit [.page]) (still_emit h.2 still_page) h.1 (Nat.le_refl _)
  | c :: cs => by
    unfold listCommands
    split
    · exact h
    · exact h
    · exact atEnd_list h cs

theorem atEnd_accept {t : Term} (h : CursorAtEnd t) : CursorAtEnd t.accept.2 := by
  unfold accept
  dsimp only
  split
  · exact ⟨rfl, h.2⟩
  · exact ⟨rfl, h.2⟩

theorem atEnd_confirm {env : TermEnv} (hf : ∀ f, env.files f = none) {t : Term} (h : CursorAtEnd t) : ∀ n, CursorAtEnd (confirm env n t).2
  | 0 => h
  | n + 1 => by
    unfold confirm
    split
    · refine atEnd_fresh (t := ({ t.send (t.inputBuffer.take t.cursorPos) with inputBuffer := t.inputBuffer.drop t.cursorPos, cursorPos := 0 } : Term).emit [.newline])
        (still_emit h.2 still_newline) ?_ (Nat.zero_le _)
      show 0 = (t.inputBuffer.drop t.cursorPos).length
      rw [List.length_drop, h.1]
      omega
    · split
      · exact ⟨h.1, still_emit h.2 still_newline⟩
      · have ha := atEnd_accept h
        dsimp only
        generalize t.accept.2 = u at ha
        generalize t.accept.1 = s
        split
        · exact atEnd_fresh (t := u.emit [.page]) (still_emit ha.2 still_page) ha.1 (Nat.le_refl _)
        · exact atEnd_fresh (t := u.emit [.page]) (still_emit ha.2 still_page) ha.1 (Nat.le_refl _)
        · exact atEnd_list ha _
        · rw [hf]
          exact atEnd_fresh (t := u.emit [.page]) (still_emit ha.2 still_page) ha.1 (Nat.le_refl _)
        · unfold startSms
          dsimp only
          have hs : Still ((({ u with typingSms := true } : Term).emit [.newline]).send (s ++ [13])).out := still_emit (t := { u with typingSms := true }) ha.2 still_newline
          split
          · exact atEnd_fresh (t := { (({ u with typingSms := true } : Term).emit [.newline]).send (s ++ [13]) with typingSms := false }) hs ha.1 (Nat.zero_le _)
          · exact ⟨ha.1, still_emit hs still_page⟩
          · exact atEnd_fresh (t := ({ (({ u with typingSms := true } : Term).emit [.newline]).send (s ++ [13]) with smsPrompt := _ } : Term).emit [.page])
              (still_emit hs still_page) ha.1 (Nat.zero_le _)
        · exact ⟨ha.1, still_emit (t := (u.send s).send [13]) ha.2 still_newline⟩
        · exact ⟨ha.1, still_emit ha.2 still_newline⟩

theorem atEnd_press {env : TermEnv} (hf : ∀ f, env.files f = none) {t : Term} (h : CursorAtEnd t) {c : PyStr} (hc : Forward c) : CursorAtEnd (press env c t).2 := by
  obtain ⟨x, rfl, hx⟩ := hc
  have hi : CursorAtEnd (t.insert x) := by
    refine atEnd_fresh (t := { t with inputBuffer := _, cursorPos := _ }) h.2 ?_ (Nat.zero_le _)
    simp only [List.length_append, List.length_take, List.length_cons, List.length_drop]
    have := h.1
    omega
  unfold press
  cases hk : keyOf [x] with
  | none =>
    dsimp only
    split
    · exact hi
    · exact h
  | some k =>
    dsimp only
    unfold keyOf at hk
    simp only [List.cons.injEq, and_true, reduceCtorEq, and_false, if_false] at hk
    split at hk
    · cases hk
      refine ⟨h.1, still_emit (t := t.removePrompt) (still_emit h.2 ?_) still_page⟩
      intro o ho
      simp only [List.mem_cons, List.not_mem_nil, or_false] at ho
      rcases ho with rfl | rfl | rfl <;> exact ⟨by simp, by simp⟩
    · split at hk
      · cases hk; exact atEnd_confirm hf h _
      · split at hk
        · cases hk; exact atEnd_complete h
        · split at hk
          · cases hk
            show CursorAtEnd t.ctrlZ
            unfold ctrlZ
            split
            · exact atEnd_fresh (t := ({ (t.send t.inputBuffer).send [26] with typingSms := false, inputBuffer := [], cursorPos := 0 } : Term).emit [.newline])
                (still_emit h.2 still_newline) rfl (Nat.zero_le _)
            · exact h
          · split at hk
            · cases hk
              show CursorAtEnd t.esc
              unfold esc
              split
              · exact ⟨rfl, h.2⟩
              · exact h
            · cases hk

end Gsm
