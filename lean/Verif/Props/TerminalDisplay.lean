import Verif.Props.TerminalCompletion
/-! # C61: what the terminal shows -/
namespace Gsm
open Spec Term

/-- The screen shows the prompt, the line and the cursor; or an empty row while the line is empty (after a command is sent). -/
def Shown (t : Term) : Prop :=
  Displays (screenOf t.out) t.termPrompt (lineOf t) ∨ (screenOf t.out = {} ∧ t.inputBuffer = [])

/-- Nothing but blanks from a column on. -/
def BlankFrom (s : Screen) (n : Nat) : Prop := ∀ x ∈ s.row.drop n, x = 32

theorem screen_emit (l : List Out) (t : Term) : screenOf (t.emit l).out = l.foldl Screen.put (screenOf t.out) := by
  simp [screenOf, emit, List.foldr_append, List.foldr_reverse]

theorem put_text (x y r : PyStr) : Screen.put ⟨x ++ r.drop x.length, x.length⟩ (.text y) = ⟨(x ++ y) ++ r.drop (x ++ y).length, (x ++ y).length⟩ := by
  simp only [Screen.put, Screen.mk.injEq, List.length_append, and_true]
  have h1 : x.length - (x.length + (r.drop x.length).length) = 0 := by omega
  rw [h1]
  simp only [List.replicate_zero, List.append_nil, List.append_assoc, List.take_left, List.append_cancel_left_eq]
  rw [List.drop_append, List.drop_of_length_le (by omega), List.drop_drop]
  simp

theorem blank_replicate {l : PyStr} (h : ∀ x ∈ l, x = 32) : ∃ k, l = List.replicate k 32 := ⟨l.length, List.eq_replicate_iff.2 ⟨rfl, h⟩⟩

/-- Drawing the prompt and the line makes the screen show them. -/
theorem shows_refresh {t : Term} {clear : Nat} (hc : t.cursorPos ≤ t.inputBuffer.length)
    (hb : BlankFrom (screenOf t.out) (t.termPrompt.length + max t.inputBuffer.length clear))
    (hk : clear = 0 ∨ t.inputBuffer.length ≤ clear ∨ t.cursorPos = t.inputBuffer.length) : Shown (t.refresh clear) := by
  left
  generalize hs : screenOf t.out = s at hb
  obtain ⟨r, c⟩ := s
  have e : screenOf (t.refresh clear).out =
      ⟨(t.termPrompt ++ t.inputBuffer ++ List.replicate (clear - t.inputBuffer.length) 32) ++
          r.drop (t.termPrompt ++ t.inputBuffer ++ List.replicate (clear - t.inputBuffer.length) 32).length,
        (t.termPrompt ++ t.inputBuffer ++ List.replicate (clear - t.inputBuffer.length) 32).length -
          ((if 0 < clear then clear else t.inputBuffer.length) - t.cursorPos)⟩ := by
    unfold refresh
    rw [screen_emit, hs]
    simp only [List.foldl_cons, List.foldl_nil]
    have h0 : Screen.put ⟨r, c⟩ .cr = ⟨[] ++ r.drop ([] : PyStr).length, ([] : PyStr).length⟩ := rfl
    rw [h0, put_text, put_text, put_text]
    rfl
  rw [e]
  obtain ⟨k, hk'⟩ := blank_replicate (l := r.drop (t.termPrompt ++ t.inputBuffer ++ List.replicate (clear - t.inputBuffer.length) 32).length) (by
    refine fun x hx => hb x ?_
    simp only [List.length_append, List.length_replicate] at hx
    rwa [show t.termPrompt.length + max t.inputBuffer.length clear = t.termPrompt.length + t.inputBuffer.length + (clear - t.inputBuffer.length) by omega])
  constructor
  · refine ⟨(clear - t.inputBuffer.length) + k, ?_⟩
    change _ = t.termPrompt ++ t.inputBuffer.take t.cursorPos ++ t.inputBuffer.drop t.cursorPos ++ _
    rw [List.append_assoc t.termPrompt (List.take _ _), List.take_append_drop, ← List.replicate_append_replicate]
    dsimp only
    rw [hk']
    simp only [List.append_assoc]
  · change _ = t.termPrompt.length + (t.inputBuffer.take t.cursorPos).length
    simp only [List.length_append, List.length_replicate, List.length_take]
    split <;> omega

theorem blank_fresh (n : Nat) : BlankFrom {} n := by intro x hx; simp at hx

theorem blank_shown {t : Term} (h : Shown t) {n : Nat} (hn : t.termPrompt.length + t.inputBuffer.length ≤ n) : BlankFrom (screenOf t.out) n := by
  rcases h with ⟨⟨k, hk⟩, _⟩ | ⟨h, _⟩
  · intro x hx
    rw [hk] at hx
    simp only [lineOf] at hx
    rw [List.append_assoc t.termPrompt, List.take_append_drop, List.drop_append, List.drop_of_length_le (by simpa using hn)] at hx
    simp only [List.nil_append, List.drop_replicate] at hx
    exact List.eq_of_mem_replicate hx
  · rw [h]; exact blank_fresh n

/-- Output that ends with a line feed, and then the prompt. -/
theorem shows_page {t : Term} {clear : Nat} (l : List Out) {o : Out} (ho : o = .newline ∨ o = .page) (hc : t.cursorPos ≤ t.inputBuffer.length)
    (hk : clear = 0 ∨ t.inputBuffer.length ≤ clear ∨ t.cursorPos = t.inputBuffer.length) : Shown ((t.emit (l ++ [o])).refresh clear) := by
  refine shows_refresh (t := t.emit (l ++ [o])) hc ?_ hk
  rw [screen_emit, List.foldl_append]
  rcases ho with rfl | rfl <;> exact blank_fresh _

theorem shows_fresh {t : Term} {clear : Nat} (hf : screenOf t.out = {}) (hc : t.cursorPos ≤ t.inputBuffer.length)
    (hk : clear = 0 ∨ t.inputBuffer.length ≤ clear ∨ t.cursorPos = t.inputBuffer.length) : Shown (t.refresh clear) :=
  shows_refresh hc (by rw [hf]; exact blank_fresh _) hk

theorem fresh_emit (t : Term) {o : Out} (ho : o = .newline ∨ o = .page) : screenOf (t.emit [o]).out = {} := by
  rw [screen_emit]
  rcases ho with rfl | rfl <;> rfl

theorem shown_newline {t : Term} (h : t.inputBuffer = []) : Shown (t.emit [.newline]) := .inr ⟨by rw [screen_emit]; rfl, h⟩

theorem shown_list {t : Term} (hc : t.cursorPos ≤ t.inputBuffer.length) : ∀ cs : List PyStr, (t.listCommands cs).1 = .ok () → Shown (t.listCommands cs).2
  | [], _ => shows_page [] (.inr rfl) hc (.inr (.inl (Nat.le_refl _)))
  | c :: cs, h => by
    unfold listCommands at h ⊢
    split at h
    · cases h
    · cases h
    · exact shown_list hc cs h

theorem shown_startSms {env : TermEnv} {s : PyStr} {t : Term} (hc : t.cursorPos ≤ t.inputBuffer.length) (h : (startSms env s t).1 = .ok ()) :
    Shown (startSms env s t).2 := by
  unfold startSms at h ⊢
  dsimp only at h ⊢
  split at h
  · exact shows_fresh (fresh_emit { t with typingSms := true } (.inl rfl)) hc (.inl rfl)
  · cases h
  · exact shows_fresh (fresh_emit _ (.inr rfl)) hc (.inl rfl)

theorem shown_script {f : Term → TermStep} (hk : Keeps f) (hf : ∀ t : Term, TermOk t.core → (f t).1 = .ok () → Shown (f t).2) :
    ∀ (lines : List PyStr) (t : Term), TermOk t.core → t.cursorPos = 0 → Shown t → (script f lines t).1 = .ok () → Shown (script f lines t).2
  | [], t, _, _, h, _ => h
  | line :: lines, t, hok, h0, h, h1 => by
    unfold script at h1 ⊢
    dsimp only at h1 ⊢
    split at h1
    · next hc =>
      rw [if_pos hc]
      have hok' : TermOk ({ t with inputBuffer := strip2 line }.refresh (strip2 line).length).core := ⟨by change t.cursorPos ≤ _; omega, hok.2⟩
      have e1 := hf _ hok'
      have e2 := hk _ hok'
      generalize f _ = r at h1 e1 e2
      obtain ⟨r, t1⟩ := r
      cases r with
      | ok u => exact shown_script hk hf lines t1 e2.1 (e2.2 rfl) (e1 rfl) h1
      | error e => cases h1
    · next hc =>
      rw [if_neg hc]
      exact shown_script hk hf lines t hok h0 h h1

/-- Enter. -/
theorem shown_confirm {env : TermEnv} : ∀ (n : Nat) (t : Term), TermOk t.core → (confirm env n t).1 = .ok () → Shown (confirm env n t).2
  | 0, t, _, h => nomatch h
  | n + 1, t, hok, h => by
    unfold confirm at h ⊢
    split
    · exact shows_fresh (fresh_emit _ (.inl rfl)) (Nat.zero_le _) (.inl rfl)
    · next ht =>
      rw [if_neg ht] at h
      split
      · next hb => exact shown_newline hb
      · next hb =>
        rw [if_neg hb] at h
        dsimp only at h ⊢
        have ha := ok_accept hok
        generalize t.accept.2 = t1 at h ha ⊢
        generalize t.accept.1 = s at h ⊢
        obtain ⟨hok1, hb1, hc1⟩ := ha
        have hcl : t1.cursorPos ≤ t1.inputBuffer.length := hok1.1
        cases hkind : kindOf t1.categories s with
        | help => exact shows_fresh (fresh_emit _ (.inr rfl)) hcl (.inr (.inl (Nat.le_refl _)))
        | categories => exact shows_fresh (fresh_emit _ (.inr rfl)) hcl (.inr (.inl (Nat.le_refl _)))
        | list =>
          rw [hkind] at h
          exact shown_list hcl _ h
        | script name =>
          rw [hkind] at h
          dsimp only at h ⊢
          cases hfile : env.files name with
          | none => exact shows_fresh (fresh_emit _ (.inr rfl)) hcl (.inr (.inl (Nat.le_refl _)))
          | some lines =>
            rw [hfile] at h
            exact shown_script (ok_confirm n) (shown_confirm n) lines (t1.emit [.newline]) hok1 hc1 (shown_newline hb1) h
        | sms =>
          rw [hkind] at h
          exact shown_startSms hcl h
        | command => exact shown_newline hb1
        | nothing => exact shown_newline hb1

theorem shown_left {t : Term} (h : Shown t) (hc : t.cursorPos ≤ t.inputBuffer.length) : Shown t.cursorLeft := by
  unfold cursorLeft
  split
  · next h0 =>
    rcases h with ⟨⟨k, h1⟩, h2⟩ | ⟨_, h1⟩
    · left
      rw [screen_emit]
      refine ⟨⟨k, ?_⟩, ?_⟩
      · refine Eq.trans h1 ?_
        change t.termPrompt ++ t.inputBuffer.take t.cursorPos ++ t.inputBuffer.drop t.cursorPos ++ _ =
          t.termPrompt ++ t.inputBuffer.take (t.cursorPos - 1) ++ t.inputBuffer.drop (t.cursorPos - 1) ++ _
        rw [List.append_assoc t.termPrompt (List.take _ _), List.append_assoc t.termPrompt (List.take _ _), List.take_append_drop, List.take_append_drop]
      · change (screenOf t.out).col - 1 = t.termPrompt.length + (t.inputBuffer.take (t.cursorPos - 1)).length
        rw [h2]
        simp only [lineOf, List.length_take]
        omega
    · rw [h1] at hc; exact absurd hc (by simp; omega)
  · exact h

theorem shown_right {t : Term} (h : Shown t) : Shown t.cursorRight := by
  unfold cursorRight
  split
  · next h0 =>
    rcases h with ⟨⟨k, h1⟩, h2⟩ | ⟨_, h1⟩
    · left
      rw [screen_emit]
      refine ⟨⟨k, ?_⟩, ?_⟩
      · refine Eq.trans h1 ?_
        change t.termPrompt ++ t.inputBuffer.take t.cursorPos ++ t.inputBuffer.drop t.cursorPos ++ _ =
          t.termPrompt ++ t.inputBuffer.take (t.cursorPos + 1) ++ t.inputBuffer.drop (t.cursorPos + 1) ++ _
        rw [List.append_assoc t.termPrompt (List.take _ _), List.append_assoc t.termPrompt (List.take _ _), List.take_append_drop, List.take_append_drop]
      · change (screenOf t.out).col + 1 = t.termPrompt.length + (t.inputBuffer.take (t.cursorPos + 1)).length
        rw [h2]
        simp only [lineOf, List.length_take]
        omega
    · rw [h1] at h0; exact absurd h0 (by simp)
  · exact h

/-- Redrawing after an edit, when what is cleared covers the old line. -/
theorem shown_edit {t : Term} (h : Shown t) {b : PyStr} {c p clear : Nat} (hb : t.inputBuffer.length ≤ max b.length clear) (hc : c ≤ b.length)
    (hk : clear = 0 ∨ b.length ≤ clear ∨ c = b.length) : Shown ({ t with inputBuffer := b, cursorPos := c, historyPos := p }.refresh clear) := by
  refine shows_refresh (t := { t with inputBuffer := b, cursorPos := c, historyPos := p }) hc ?_ hk
  refine blank_shown (t := t) h ?_
  change _ ≤ t.termPrompt.length + max b.length clear
  omega

theorem shown_recall {t : Term} (h : Shown t) (p : Nat) : Shown { t with historyPos := p }.recall.2 := by
  unfold recall
  split
  · exact h
  · exact shown_edit h (Nat.le_max_right _ _) (Nat.le_refl _) (.inr (.inr rfl))

theorem shown_syntax {t : Term} (h : Shown t) (hc : t.cursorPos ≤ t.inputBuffer.length) (s : PyStr) : Shown (t.commandSyntax s).2 := by
  unfold commandSyntax
  split
  · exact h
  · dsimp only
    split
    · exact shows_fresh (fresh_emit _ (.inr rfl)) hc (.inr (.inl (Nat.le_refl _)))
    · exact h
  · exact h

/-- What the display copes with: no ESC while a message is typed, no empty notification, no completion of a line by a shorter text. -/
def Tidy (t : Term) : Happening → Prop
  | .key c => (c = [27] → t.typingSms = false) ∧
      (c = [9] → ∀ m, t.completion.keys (some (typedCommand t)) = [m] → t.inputBuffer.length ≤ m.length)
  | .notify lines => lines ≠ []

theorem shown_complete {t : Term} (h : Shown t) (hc : t.cursorPos ≤ t.inputBuffer.length)
    (hm : ∀ m, t.completion.keys (some (typedCommand t)) = [m] → t.inputBuffer.length ≤ m.length) : Shown t.complete.2 := by
  unfold complete
  dsimp only
  unfold typedCommand at hm
  split
  · split
    · exact h
    · split
      · exact shown_syntax h hc _
      · exact h
  · next m hk =>
    split
    · exact shown_syntax h hc _
    · exact shown_edit (p := t.historyPos) h (Nat.le_trans (hm m hk) (Nat.le_max_left _ _)) (Nat.le_refl _) (.inr (.inl (Nat.le_refl _)))
  · refine shows_fresh ?_ (Nat.le_refl _) (.inr (.inl (Nat.le_refl _)))
    rw [screen_emit]
    rfl

theorem shown_key {env : TermEnv} {t : Term} (h : Shown t) (hok : TermOk t.core) (k : Key)
    (hesc : k = .esc → t.typingSms = false)
    (htab : k = .tab → ∀ m, t.completion.keys (some (typedCommand t)) = [m] → t.inputBuffer.length ≤ m.length)
    (h1 : (handleKey env t k).1 = .ok ()) (ha : (handleKey env t k).2.alive = true) : Shown (handleKey env t k).2 := by
  have hc : t.cursorPos ≤ t.inputBuffer.length := hok.1
  cases k with
  | exit => cases ha
  | left => exact shown_left h hc
  | right => exact shown_right h
  | up =>
    simp only [handleKey, cursorUp]
    split
    · exact shown_recall h _
    · exact h
  | down =>
    simp only [handleKey, cursorDown]
    split
    · exact shown_recall h _
    · exact h
  | enter =>
    exact shown_confirm _ t hok h1
  | tab => exact shown_complete h hc (htab rfl)
  | ctrlZ =>
    simp only [handleKey, ctrlZ]
    split
    · exact shows_fresh (fresh_emit _ (.inl rfl)) (Nat.zero_le _) (.inl rfl)
    · exact h
  | esc =>
    simp only [handleKey, esc, hesc rfl]
    exact h
  | backspace =>
    simp only [handleKey, backspace]
    split
    · refine shown_edit (p := t.historyPos) h ?_ ?_ (.inr (.inl (Nat.le_succ _)))
      · simp only [List.length_append, List.length_take, List.length_drop]
        omega
      · simp only [List.length_append, List.length_take, List.length_drop]
        omega
    · exact h
  | delete =>
    simp only [handleKey, delete]
    split
    · refine shown_edit (c := t.cursorPos) (p := t.historyPos) h ?_ ?_ (.inr (.inl (Nat.le_succ _)))
      · simp only [List.length_append, List.length_take, List.length_drop]
        omega
      · simp only [List.length_append, List.length_take, List.length_drop]
        omega
    · exact h
  | home => exact shown_edit (b := t.inputBuffer) (p := t.historyPos) h (Nat.le_max_left _ _) (Nat.zero_le _) (.inr (.inl (Nat.le_refl _)))
  | toEnd => exact shown_edit (b := t.inputBuffer) (p := t.historyPos) h (Nat.le_max_left _ _) (Nat.le_refl _) (.inr (.inl (Nat.le_refl _)))

theorem shown_insert {t : Term} (h : Shown t) (hc : t.cursorPos ≤ t.inputBuffer.length) (c : Nat) : Shown (t.insert c) := by
  refine shown_edit (p := t.historyPos) h ?_ ?_ (.inl rfl)
  · simp only [List.length_append, List.length_take, List.length_cons, List.length_drop]
    omega
  · simp only [List.length_append, List.length_take, List.length_cons, List.length_drop]
    omega

theorem ite_skip {P : Prop} [Decidable P] {a b x : Option Key} (h : (if P then a else b) = x) (ha : a ≠ x) : b = x := by
  by_cases hp : P
  · rw [if_pos hp] at h; exact absurd h ha
  · rwa [if_neg hp] at h

theorem ite_take {P : Prop} [Decidable P] {a b x : Option Key} (h : (if P then a else b) = x) (hb : b ≠ x) : P := by
  by_cases hp : P
  · exact hp
  · rw [if_neg hp] at h; exact absurd h hb

theorem key_esc {c : PyStr} (h : keyOf c = some .esc) : c = [27] := by
  unfold keyOf at h
  iterate 8 replace h := ite_skip h (by decide)
  refine ite_take h fun h => ?_
  iterate 4 replace h := ite_skip h (by decide)
  cases h

theorem key_tab {c : PyStr} (h : keyOf c = some .tab) : c = [9] := by
  unfold keyOf at h
  iterate 6 replace h := ite_skip h (by decide)
  refine ite_take h fun h => ?_
  iterate 6 replace h := ite_skip h (by decide)
  cases h

/-- C61: what is on the screen stays right through every key and every notification. -/
theorem C61_display {env : TermEnv} {t : Term} (h : Shown t) (hok : TermOk t.core) (x : Happening) (hx : Tidy t x)
    (ha : (happen env t x).alive = true) : Shown (happen env t x) := by
  unfold happen at ha ⊢
  cases x with
  | key c =>
    dsimp only at ha ⊢
    split
    · next hal =>
      rw [if_pos hal] at ha
      have e : (press env c t).1 = .ok () → (press env c t).2.alive = true → Shown (press env c t).2 := by
        unfold press
        split
        · next k hk => exact fun h1 h2 => shown_key h hok k (fun e => hx.1 (key_esc (e ▸ hk))) (fun e => hx.2 (key_tab (e ▸ hk))) h1 h2
        · split
          · dsimp only
            split
            · exact fun _ _ => shown_insert h hok.1 _
            · exact fun _ _ => h
          · exact fun _ _ => h
      generalize press env c t = r at ha e ⊢
      obtain ⟨r, t1⟩ := r
      cases r with
      | ok u => exact e rfl ha
      | error err => cases ha
    · exact h
  | notify lines =>
    dsimp only at ha ⊢
    split
    · unfold notification
      cases lines with
      | nil => exact absurd rfl hx
      | cons line rest =>
        dsimp only
        split
        · exact shows_fresh (fresh_emit _ (.inr rfl)) hok.1 (.inl rfl)
        · exact shows_fresh (fresh_emit _ (.inr rfl)) hok.1 (.inl rfl)
    · exact h

/-- A session in which nothing happens that the display does not cope with. -/
def TidySession (env : TermEnv) : List Happening → Term → Prop
  | [], _ => True
  | x :: hs, t => Tidy t x ∧ TidySession env hs (happen env t x)

theorem dead_stays (env : TermEnv) : ∀ (hs : List Happening) (t : Term), t.alive = false → session env hs t = t
  | [], _, _ => rfl
  | x :: hs, t, h => by
    have : happen env t x = t := by unfold happen; cases x <;> simp [h]
    rw [session, List.foldl_cons, this]
    exact dead_stays env hs t h

/-- C61: in every such session, as long as the terminal runs, the screen shows the prompt and the line, with the cursor in its place. -/
theorem C61_session {env : TermEnv} : ∀ (hs : List Happening) (t : Term), Shown t → TermOk t.core → TidySession env hs t →
    (session env hs t).alive = true → Shown (session env hs t)
  | [], _, h, _, _, _ => h
  | x :: hs, t, h, hok, hx, ha => by
    have h1 : (happen env t x).alive = true := by
      cases hd : (happen env t x).alive with
      | true => rfl
      | false =>
        rw [session, List.foldl_cons] at ha
        have := dead_stays env hs _ hd
        rw [session] at this
        rw [this, hd] at ha
        exact ha
    exact C61_session hs _ (C61_display h hok x hx.1 h1) (C57_invariant env [x] t hok) hx.2 ha

/-- C61: a new terminal shows its prompt. -/
theorem C61_start (completion : Trie (Option CmdHelp)) (categories : List PyStr) : Shown (start completion categories) :=
  shows_fresh (fresh_emit _ (.inr rfl)) (Nat.le_refl _) (.inl rfl)

/-- C61 violated by what is left out: after ESC the message and its prompt stay on the screen, and after the completion of a line with
blanks its end stays. -/
theorem C61_violated :
    screenOf (session demoEnv (typed (py!"AT+CMGS=1" ++ [10] ++ py!"hi" ++ [27])) demoTerm).out = ⟨py!"> hi", 4⟩ ∧
    screenOf (session demoEnv (typed (py!"      AT+CS" ++ [9])) demoTerm).out = ⟨py!"GSM> AT+CSQAT+CS", 11⟩ := by
  decide +kernel

/-- A session with edits, a message, a notification (which takes the place of the prompt, as it comes while the message is typed), a script
and a completion. -/
def tidyKeys : List Happening :=
  typed (py!"ATX" ++ [10]) ++ [.notify [py!"OK"]] ++ typed (py!"AT+CMGS=1" ++ [10] ++ py!"hello") ++
    [.key [27, 91, 68], .key [127], .notify [py!"RING"]] ++ typed ([26] ++ py!"load x" ++ [10] ++ py!"AT+CS" ++ [9])

example : screenOf (session demoEnv tidyKeys demoTerm).out = ⟨py!"RINGAT+CSQ", 10⟩ := by decide +kernel
example : screenOf (session demoEnv (tidyKeys.take 22) demoTerm).out = ⟨py!"> helo ", 5⟩ := by decide +kernel

/-- Whether a session is tidy can be computed. -/
def tidyB (t : Term) : Happening → Bool
  | .key c => (c != [27] || !t.typingSms) && (c != [9] || match t.completion.keys (some (typedCommand t)) with | [m] => t.inputBuffer.length ≤ m.length | _ => true)
  | .notify lines => lines != []

theorem tidy_of {t : Term} {x : Happening} (h : tidyB t x = true) : Tidy t x := by
  cases x with
  | key c =>
    simp only [tidyB, Bool.and_eq_true, Bool.or_eq_true, bne_iff_ne, ne_eq, Bool.not_eq_true'] at h
    refine ⟨fun hc => h.1.resolve_left (absurd hc), fun hc m hm => ?_⟩
    have := h.2.resolve_left (absurd hc)
    rw [hm] at this
    simpa using this
  | notify lines => simpa [tidyB, Tidy] using h

def tidySessionB (env : TermEnv) : List Happening → Term → Bool
  | [], _ => true
  | x :: hs, t => tidyB t x && tidySessionB env hs (happen env t x)

theorem tidySession_of {env : TermEnv} : ∀ {hs : List Happening} {t : Term}, tidySessionB env hs t = true → TidySession env hs t
  | [], _, _ => trivial
  | x :: hs, t, h => by
    simp only [tidySessionB, Bool.and_eq_true] at h
    exact ⟨tidy_of h.1, tidySession_of h.2⟩

example : TidySession demoEnv tidyKeys demoTerm := tidySession_of (by decide +kernel)

end Gsm
