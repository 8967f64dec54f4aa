import Verif.Model.RawTerm
import Verif.Spec.Keyboard
import Verif.Props.TerminalDisplay
import Verif.Props.TerminalSms
/-! # C74: what the keyboard gives the terminals -/
namespace Gsm
open Spec Term

/-! ### The raw terminal -/

theorem takeWhile_all {α : Type} {p : α → Bool} : ∀ {l : List α}, (∀ x ∈ l, p x = true) → l.takeWhile p = l
  | [], _ => rfl
  | x :: l, h => by rw [List.takeWhile_cons, h x (by simp), if_pos rfl, takeWhile_all (fun y hy => h y (by simp [hy]))]

theorem flatten_singles : ∀ s : PyStr, (s.map ([·])).flatten = s
  | [] => rfl
  | c :: s => by rw [List.map_cons, List.flatten_cons, flatten_singles s]; rfl

theorem raw_dead (cs : List PyStr) : ∀ {t : Raw}, t.alive = false → Raw.run cs t = t := by
  induction cs with
  | nil => intro t _; rfl
  | cons c cs ih => intro t h; simp only [Raw.run, List.foldl, Raw.key, h, Bool.false_eq_true, if_false]; exact ih h

theorem raw_run (cs : List PyStr) : ∀ (t : Raw), t.alive = true → t.echo = true →
    (Raw.run cs t).sent = t.sent ++ ((cs.takeWhile (· ≠ [29])).map fun c => if c = [10] then [13] else c).flatten ∧
    (Raw.run cs t).echoed = t.echoed ++ (cs.takeWhile (· ≠ [29])).flatten ∧ ((Raw.run cs t).alive = true ↔ [29] ∉ cs) := by
  induction cs with
  | nil => intro t h _; simp [Raw.run, h]
  | cons c cs ih =>
    intro t h he
    by_cases h1 : c = [29]
    · have : Raw.run (c :: cs) t = { t with alive := false } := by
        show Raw.run cs (t.key c) = _
        have hk : t.key c = { t with alive := false } := by rw [Raw.key, if_pos h, if_pos h1]
        rw [hk]; exact raw_dead cs rfl
      rw [this]; simp [h1]
    · have step : Raw.run (c :: cs) t = Raw.run cs (t.key c) := rfl
      by_cases h2 : c = [10]
      · have hk : t.key c = { t with sent := t.sent ++ [13], echoed := t.echoed ++ c } := by
          rw [Raw.key, if_pos h, if_neg h1, if_pos h2, if_pos he]
        obtain ⟨i1, i2, i3⟩ := ih (t.key c) (by rw [hk]; exact h) (by rw [hk]; exact he)
        rw [step, i1, i2, hk]
        refine ⟨by simp [h2], by simp [h2], ?_⟩
        rw [← hk, i3]; simp [Ne.symm h1]
      · have hk : t.key c = { t with sent := t.sent ++ c, echoed := t.echoed ++ c } := by
          rw [Raw.key, if_pos h, if_neg h1, if_neg h2, if_pos he]
        obtain ⟨i1, i2, i3⟩ := ih (t.key c) (by rw [hk]; exact h) (by rw [hk]; exact he)
        rw [step, i1, i2, hk]
        refine ⟨by simp [h1, h2], by simp [h1], ?_⟩
        rw [← hk, i3]; simp [Ne.symm h1]

/-- C74: the raw terminal sends every piece as it is, but a lone line feed as carriage return, until the first
lone CTRL+]; it shows what it was given. -/
theorem C74_raw (cs : List PyStr) :
    (Raw.run cs).sent = ((cs.takeWhile (· ≠ [29])).map fun c => if c = [10] then [13] else c).flatten ∧
    (Raw.run cs).echoed = (cs.takeWhile (· ≠ [29])).flatten ∧ ((Raw.run cs).alive = true ↔ [29] ∉ cs) := by
  simpa using raw_run cs {} rfl rfl

/-- C74: so a text typed so slowly that every character is read alone is sent as it should be. -/
theorem C74_raw_slow (typed : PyStr) :
    (Raw.run (typed.map ([·]))).sent = rawText typed ∧ (Raw.run (typed.map ([·]))).echoed = typed.takeWhile (· ≠ 29) ∧
    ((Raw.run (typed.map ([·]))).alive = true ↔ 29 ∉ typed) := by
  obtain ⟨h1, h2, h3⟩ := C74_raw (typed.map ([·]))
  have e : (typed.map ([·])).takeWhile (· ≠ [29]) = (typed.takeWhile (· ≠ 29)).map ([·]) := by
    rw [List.takeWhile_map]; congr 1; congr 1; funext x; simp [Function.comp]
  refine ⟨?_, ?_, ?_⟩
  · rw [h1, e, rawText]
    induction typed.takeWhile (· ≠ 29) with
    | nil => rfl
    | cons c l ih => simp only [List.map_cons, List.flatten_cons, ih]; by_cases hc : c = 10 <;> simp [hc]
  · rw [h2, e]
    induction typed.takeWhile (· ≠ 29) with
    | nil => rfl
    | cons c l ih => simp [ih]
  · rw [h3]; simp

/-- C74: in whatever pieces, without line feeds and CTRL+] all of it is sent. -/
theorem C74_raw_plain {typed : PyStr} {cs : List PyStr} (h : Pieces typed cs) (h1 : 10 ∉ typed) (h2 : 29 ∉ typed) :
    (Raw.run cs).sent = typed ∧ (Raw.run cs).alive = true := by
  obtain ⟨a, _, c⟩ := C74_raw cs
  have n1 : ∀ c ∈ cs, c ≠ [10] := by
    rintro c hc rfl; exact h1 (by rw [← h.text]; exact List.mem_flatten.2 ⟨_, hc, by simp⟩)
  have n2 : ∀ c ∈ cs, c ≠ [29] := by
    rintro c hc rfl; exact h2 (by rw [← h.text]; exact List.mem_flatten.2 ⟨_, hc, by simp⟩)
  have e : cs.takeWhile (· ≠ [29]) = cs := takeWhile_all (fun c hc => by simpa using n2 c hc)
  refine ⟨?_, c.2 (fun hm => n2 _ hm rfl)⟩
  rw [a, e, ← h.text]
  congr 1
  exact (List.map_congr_left (fun c hc => if_neg (n1 c hc))).trans (List.map_id _)

/-- C74, violated: a line that is read in one piece reaches the modem without carriage return, and CTRL+] is
sent to it and does not end the terminal. -/
theorem C74_raw_violated : Pieces py!"AT\n" [py!"AT\n"] ∧ (Raw.run [py!"AT\n"]).sent = py!"AT\n" ∧ rawText py!"AT\n" = py!"AT\r" ∧
    Pieces py!"A\x1d" [py!"A\x1d"] ∧ (Raw.run [py!"A\x1d"]).alive = true ∧ (Raw.run [py!"A\x1d"]).sent = py!"A\x1d" :=
  ⟨⟨rfl, by simp⟩, by decide +kernel, by decide +kernel, ⟨rfl, by simp⟩, by decide +kernel, by decide +kernel⟩

example : (Raw.run (py!"AT\nATI\n\x1dX".map ([·]))).sent = py!"AT\rATI\r" := by decide +kernel

/-! ### The keys of the terminal -/

/-- C74: the keys are those of the table, and no others. -/
theorem C74_keys (c : PyStr) (k : Key) : keyOf c = some k ↔ (c, k) ∈ keyTable := by
  constructor
  · intro h
    have first : ∀ {P : Prop} [Decidable P] {a : Key} {r : Option Key}, (if P then some a else r) = some k → (P ∧ a = k) ∨ r = some k := by
      intro P _ a r h
      by_cases hP : P
      · rw [if_pos hP] at h; exact .inl ⟨hP, Option.some.inj h⟩
      · rw [if_neg hP] at h; exact .inr h
    rcases first h with ⟨hc | hc, rfl⟩ | h
    · subst hc; decide
    · subst hc; decide
    iterate 12
      rcases first h with ⟨rfl, rfl⟩ | h
      · decide
    cases h
  · intro h
    have : ∀ p ∈ keyTable, keyOf p.1 = some p.2 := by decide +kernel
    exact this _ h

/-- C74: the codes differ. -/
theorem C74_keys_distinct : (keyTable.map (·.1)).Nodup := by decide +kernel

/-- C74: CTRL+] and CTRL+D end the terminal, whatever it does; nothing is sent, and the row of the prompt
is blank. -/
theorem C74_exit (env : TermEnv) (t : Term) {c : PyStr} (hc : c = [29] ∨ c = [4]) :
    ∃ t1, press env c t = (.ok (), t1) ∧ t1.alive = false ∧ t1.sent = t.sent ∧ t1.history = t.history := by
  rcases hc with rfl | rfl <;> exact ⟨_, rfl, rfl, rfl, rfl⟩

/-- C74: before anything else is printed, the prompt and the line are blanked, with the cursor at the left. -/
theorem C74_removed {t : Term} (h : Shown t) : (∀ x ∈ (screenOf t.removePrompt.out).row, x = 32) ∧ (screenOf t.removePrompt.out).col = 0 := by
  have hb := blank_shown h (Nat.le_refl _)
  unfold removePrompt
  rw [screen_emit]
  simp only [List.foldl, Screen.put, Nat.zero_add, Nat.zero_sub, List.take_zero, List.nil_append, and_true, List.length_replicate]
  intro x hx
  rcases List.mem_append.1 hx with hx | hx
  · exact List.eq_of_mem_replicate hx
  · exact hb x hx

/-- C74: letters are compared without regard to case, other characters as they are. -/
theorem C74_upper : upper2 py!"abcdefghijklmnopqrstuvwxyz" = py!"ABCDEFGHIJKLMNOPQRSTUVWXYZ" ∧
    lower2 py!"ABCDEFGHIJKLMNOPQRSTUVWXYZ" = py!"abcdefghijklmnopqrstuvwxyz" ∧
    (∀ c, c ∉ py!"abcdefghijklmnopqrstuvwxyz" → upper2 [c] = [c]) ∧ (∀ c, c ∉ py!"ABCDEFGHIJKLMNOPQRSTUVWXYZ" → lower2 [c] = [c]) := by
  refine ⟨by decide +kernel, by decide +kernel, fun c h => ?_, fun c h => ?_⟩
  · have : ¬ (97 ≤ c ∧ c ≤ 122) := by
      rintro ⟨h1, h2⟩
      have all : ∀ i < 26, 97 + i ∈ py!"abcdefghijklmnopqrstuvwxyz" := by decide +kernel
      have := all (c - 97) (by omega)
      rw [Nat.add_sub_cancel' h1] at this
      exact h this
    simp [upper2, this]
  · have : ¬ (65 ≤ c ∧ c ≤ 90) := by
      rintro ⟨h1, h2⟩
      have all : ∀ i < 26, 65 + i ∈ py!"ABCDEFGHIJKLMNOPQRSTUVWXYZ" := by decide +kernel
      have := all (c - 65) (by omega)
      rw [Nat.add_sub_cancel' h1] at this
      exact h this
    simp [lower2, this]

/-- C74: blanks around a command are exactly spaces, tabs, line feeds, vertical tabs, form feeds and
carriage returns. -/
theorem C74_blank (c : Nat) : isBlank c = true ↔ c ∈ [32, 9, 10, 11, 12, 13] := by
  simp only [isBlank, decide_eq_true_eq, List.mem_cons, List.not_mem_nil, or_false]
  omega

/-! ### Typing -/

/-- The characters that come alone are inserted; pieces of several characters that are no key are lost. -/
theorem typed_pieces (env : TermEnv) : ∀ (cs : List PyStr) {t : Term}, t.alive = true → t.cursorPos ≤ t.inputBuffer.length →
    (∀ c ∈ cs, (∃ x, c = [x] ∧ Types (.insert x)) ∨ (c.length ≠ 1 ∧ keyOf c = none)) →
    ∃ t1, session env (cs.map .key) t = t1 ∧ t1.alive = true ∧ t1.cursorPos ≤ t1.inputBuffer.length ∧
      lineOf t1 = ⟨(lineOf t).before ++ (cs.filter (·.length = 1)).flatten, (lineOf t).after⟩ ∧
      t1.sent = t.sent ∧ t1.typingSms = t.typingSms := by
  intro cs
  induction cs with
  | nil => intro t ha hc _; exact ⟨t, rfl, ha, hc, by simp, rfl, rfl⟩
  | cons c cs ih =>
    intro t ha hc h
    have hstep : ∀ t2, press env c t = (.ok (), t2) → session env ((c :: cs).map .key) t = session env (cs.map .key) t2 := by
      intro t2 hp
      show (cs.map Happening.key).foldl (happen env) (happen env t (.key c)) = _
      rw [happen, if_pos ha, hp]; rfl
    rcases h c (by simp) with ⟨x, rfl, hx⟩ | ⟨hl, hk⟩
    · obtain ⟨t2, h1, h2, h3⟩ := C57_edit env hc (.insert x) hx
      have e1 : t2.alive = true := by rw [h3]; exact ha
      have hlen : t2.cursorPos ≤ t2.inputBuffer.length := by
        obtain ⟨n1, n2⟩ := key_none hx
        have : t2 = t.insert x := by
          have hp : press env [x] t = (.ok (), t.insert x) := by simp only [press, n1, n2, if_true]
          exact ((Prod.mk.inj (hp.symm.trans h1)).2).symm
        rw [this]
        show t.cursorPos + 1 ≤ (t.inputBuffer.take t.cursorPos ++ x :: t.inputBuffer.drop t.cursorPos).length
        simp; omega
      obtain ⟨t3, i1, i2, i3, i4, i5, i6⟩ := ih e1 hlen (fun c hc => h c (by simp [hc]))
      refine ⟨t3, ?_, i2, i3, ?_, ?_, ?_⟩
      · rw [hstep t2 h1]; exact i1
      · rw [i4, h2]; simp [Line.edit]
      · rw [i5, h3]
      · rw [i6, h3]
    · obtain ⟨t3, i1, i2, i3, i4, i5, i6⟩ := ih ha hc (fun c hc => h c (by simp [hc]))
      refine ⟨t3, ?_, i2, i3, ?_, i5, i6⟩
      · rw [hstep t (C57_paste_lost env t hl hk)]; exact i1
      · rw [i4]; simp [hl]

/-- C74: of a text that arrives in pieces of any sizes, the terminal takes the characters that come alone, and
loses the rest; nothing is sent. -/
theorem C74_typing (env : TermEnv) {t : Term} (ha : t.alive = true) (hc : t.cursorPos ≤ t.inputBuffer.length) {typed : PyStr} {cs : List PyStr}
    (h : Pieces typed cs) (hp : ∀ c ∈ typed, 32 ≤ c ∧ c ≤ 126) :
    ∃ t1, session env (cs.map .key) t = t1 ∧ t1.alive = true ∧ t1.sent = t.sent ∧
      lineOf t1 = ⟨(lineOf t).before ++ (cs.filter (·.length = 1)).flatten, (lineOf t).after⟩ := by
  have hmem : ∀ c ∈ cs, ∀ x ∈ c, 32 ≤ x ∧ x ≤ 126 := fun c hc x hx => hp x (by rw [← h.text]; exact List.mem_flatten.2 ⟨c, hc, hx⟩)
  obtain ⟨t1, h1, h2, _, h4, h5, _⟩ := typed_pieces env cs ha hc (fun c hcm => by
    by_cases hl : c.length = 1
    · obtain ⟨x, rfl⟩ := List.length_eq_one_iff.1 hl
      exact .inl ⟨x, rfl, .inl (hmem _ hcm x (by simp))⟩
    · refine .inr ⟨hl, ?_⟩
      cases hk : keyOf c with
      | none => rfl
      | some k =>
        have hm := (C74_keys c k).1 hk
        have bad : ∀ p ∈ keyTable, p.1.any (fun x => decide (x < 32 ∨ 126 < x)) = true := by decide +kernel
        obtain ⟨x, hx, hb⟩ := List.any_eq_true.1 (bad _ hm)
        have := hmem c hcm x hx
        simp only [decide_eq_true_eq] at hb
        omega)
  exact ⟨t1, h1, h2, h5, h4⟩

/-- C74: nothing is lost exactly if every character comes alone. -/
theorem C74_all_typed {typed : PyStr} {cs : List PyStr} (h : Pieces typed cs) :
    (cs.filter (·.length = 1)).flatten = typed ↔ cs = typed.map ([·]) := by
  obtain ⟨rfl, hs⟩ := h
  have len : ∀ l : List PyStr, (l.filter (·.length = 1)).flatten.length ≤ l.flatten.length := by
    intro l
    induction l with
    | nil => simp
    | cons c l ih => by_cases hl : c.length = 1 <;> simp [hl] at ih ⊢ <;> omega
  constructor
  · intro h
    induction cs with
    | nil => rfl
    | cons c cs ih =>
      have hc := hs c (by simp)
      by_cases hl : c.length = 1
      · obtain ⟨x, rfl⟩ := List.length_eq_one_iff.1 hl
        have h' : (cs.filter (·.length = 1)).flatten = cs.flatten := by simpa using h
        have := ih (fun c hc => hs c (by simp [hc])) h'
        rw [List.flatten_cons, List.map_append, ← this]; rfl
      · exfalso
        have e := congrArg List.length h
        have := len cs
        simp [hl] at e this
        omega
  · intro h
    have one : ∀ c ∈ cs, c.length = 1 := by
      intro c hc
      rw [h] at hc
      obtain ⟨x, _, rfl⟩ := List.mem_map.1 hc
      rfl
    rw [List.filter_eq_self.2 (fun c hc => by simpa using one c hc)]

/-- C74: a command typed slowly and confirmed is sent. -/
theorem C74_command (env : TermEnv) (hd : 0 < env.depth) {t : Term} (ha : t.alive = true) (hs : t.typingSms = false) (hb : t.inputBuffer = [])
    (h0 : t.cursorPos = 0) {s : PyStr} (hp : ∀ c ∈ s, 32 ≤ c ∧ c ≤ 126) (hc : PlainCommand (strip2 s)) :
    (session env ((s.map fun c => .key [c]) ++ [.key [10]]) t).sent = [13] :: strip2 s :: t.sent := by
  obtain ⟨t1, h1, h2, _, h4, h5, h6⟩ := typed_pieces env (s.map ([·])) ha (by omega) (by
    intro c hcm
    obtain ⟨x, hx, rfl⟩ := List.mem_map.1 hcm
    exact .inl ⟨x, rfl, .inl (hp x hx)⟩)
  have hf : ((s.map ([·])).filter (fun c : PyStr => c.length = 1)).flatten = s := by
    rw [List.filter_eq_self.2 (by simp)]
    exact flatten_singles s
  have hline : t1.inputBuffer = s := by
    have e := congrArg (fun l : Line => l.before ++ l.after) h4
    simp only [lineOf, List.take_append_drop, hf, hb, List.take_nil, List.drop_nil, List.nil_append, List.append_nil] at e
    exact e
  rw [List.map_map] at h1
  obtain ⟨t2, g1, g2, _⟩ := C57_command env hd (t := t1) (by rw [h6, hs]) (by rw [hline]; exact hc)
  have : session env ((s.map fun c => .key [c]) ++ [.key [10]]) t = happen env (session env (s.map fun c => .key [c]) t) (.key [10]) := by
    simp [session]
  rw [this]
  have e : session env (s.map fun c => .key [c]) t = t1 := h1
  rw [e, happen, if_pos h2, g1]
  show t2.sent = _
  rw [g2, hline, h5]

/-- C74, violated: a cursor key whose code arrives in two pieces cancels the message being typed. -/
theorem C74_split_key (env : TermEnv) {t : Term} (ha : t.alive = true) (ht : t.typingSms = true) :
    Pieces py!"\x1b[A" [[27], [91, 65]] ∧
    (session env [.key [27], .key [91, 65]] t).typingSms = false ∧ (session env [.key [27], .key [91, 65]] t).inputBuffer = [] ∧
    (session env [.key [27], .key [91, 65]] t).sent = [27] :: t.sent := by
  refine ⟨⟨rfl, by simp⟩, ?_⟩
  have e : happen env t (.key [27]) = { t.send [27] with typingSms := false, inputBuffer := [], cursorPos := 0 } := by
    rw [happen, if_pos ha]
    show t.esc = _
    rw [esc, if_pos ht]
  have e2 : session env [.key [27], .key [91, 65]] t = { t.send [27] with typingSms := false, inputBuffer := [], cursorPos := 0 } := by
    show happen env (happen env t (.key [27])) (.key [91, 65]) = _
    rw [e, happen, if_pos (by exact ha)]
    rfl
  rw [e2]
  exact ⟨rfl, rfl, rfl⟩

example : Pieces py!"AT" [py!"AT"] ∧ ([py!"AT"].filter (·.length = 1)).flatten = [] := ⟨⟨rfl, by simp⟩, rfl⟩

end Gsm
