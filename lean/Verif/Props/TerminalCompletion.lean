import Verif.Props.Terminal
import Verif.Props.Trie
import Verif.Model.AtCommands
/-! # C59: completion of commands in the terminal -/
namespace Gsm
open Spec Term

/-- The text that is completed. -/
def typedCommand (t : Term) : PyStr := upper2 (strip2 t.inputBuffer)

/-- The stored commands that the line may stand for. -/
def Candidate (t : Term) (k : PyStr) : Prop := t.completion.contains k = true ∧ typedCommand t <+: k

/-- Only the line, its cursor and the console differ. -/
def OnlyLine (t t1 : Term) : Prop := t1 = { t with inputBuffer := t1.inputBuffer, cursorPos := t1.cursorPos, out := t1.out }

theorem tab_press (env : TermEnv) (t : Term) : press env [9] t = t.complete := rfl

theorem onlyLine_syntax (t : Term) (c : PyStr) : OnlyLine t (t.commandSyntax c).2 := by
  unfold commandSyntax
  split
  · rfl
  · dsimp only; split <;> rfl
  · rfl

/-- C59: whatever the line and the stored commands, the key sends nothing to the modem and leaves the history alone. -/
theorem C59_silent (env : TermEnv) (t : Term) : OnlyLine t (press env [9] t).2 := by
  rw [tab_press]
  unfold complete
  dsimp only
  split
  · split
    · rfl
    · split
      · exact onlyLine_syntax t _
      · rfl
  · split
    · exact onlyLine_syntax t _
    · rfl
  · rfl

variable {t : Term} {ops : List (TrieOp (Option CmdHelp))}

theorem candidates_mem (hc : t.completion = trieOf ops) (k : PyStr) :
    k ∈ t.completion.keys (some (typedCommand t)) ↔ Candidate t k := by
  rw [hc, (C55_keys_prefix ops _).2.1 k, Candidate, hc]

theorem candidates_one (hc : t.completion = trieOf ops) {m : PyStr} (hm : Candidate t m) (hu : ∀ k, Candidate t k → k = m) :
    t.completion.keys (some (typedCommand t)) = [m] := by
  have h1 := (C55_keys_prefix ops (typedCommand t)).1
  rw [← hc] at h1
  have h2 := candidates_mem hc
  generalize t.completion.keys (some (typedCommand t)) = ks at h1 h2
  cases ks with
  | nil => exact absurd ((h2 m).2 hm) (by simp)
  | cons a as =>
    have ha : a = m := hu a ((h2 a).1 (by simp))
    cases as with
    | nil => rw [ha]
    | cons b bs =>
      have hb : b = m := hu b ((h2 b).1 (by simp))
      rw [ha, hb] at h1
      simp at h1

/-- C59: if one stored command can be meant, and it is not yet typed in full, it is put into the line. -/
theorem C59_single (env : TermEnv) (hc : t.completion = trieOf ops) {m : PyStr} (hm : Candidate t m)
    (hu : ∀ k, Candidate t k → k = m) (hn : m ≠ typedCommand t) :
    ∃ t1, press env [9] t = (.ok (), t1) ∧ lineOf t1 = ⟨m, []⟩ := by
  have h := candidates_one hc hm hu
  rw [tab_press]
  unfold complete
  dsimp only
  unfold typedCommand at h hn
  rw [h]
  dsimp only
  rw [if_neg hn]
  exact ⟨_, rfl, by simp [lineOf, refresh]⟩

/-- C59: if the command is typed in full and no other can be meant, the line stays (its syntax may be printed). -/
theorem C59_full (env : TermEnv) (hc : t.completion = trieOf ops) (hm : Candidate t (typedCommand t))
    (hu : ∀ k, Candidate t k → k = typedCommand t) :
    ∃ t1, press env [9] t = (.ok (), t1) ∧ lineOf t1 = lineOf t := by
  have h := candidates_one hc hm hu
  rw [tab_press]
  unfold complete
  dsimp only
  have hs := hm.1
  unfold typedCommand at h hs
  rw [h]
  dsimp only
  rw [if_pos rfl]
  unfold commandSyntax
  simp only [Trie.contains] at hs
  split
  · next e he => rw [he] at hs; cases hs
  · exact ⟨_, rfl, by split <;> rfl⟩
  · exact ⟨_, rfl, rfl⟩

theorem complete_several (hc : t.completion = trieOf ops) {m m' : PyStr} (hm : Candidate t m) (hm' : Candidate t m') (hne : m ≠ m') :
    ∃ t1, t.complete = (.ok (), t1) ∧ lineOf t1 = ⟨t.completion.longestCommonPrefix t.inputBuffer, []⟩ := by
  have h2 := candidates_mem hc
  have h3 := (h2 m).2 hm
  have h4 := (h2 m').2 hm'
  unfold complete
  dsimp only
  unfold typedCommand at h3 h4
  generalize t.completion.keys _ = ks at h3 h4
  match ks, h3, h4 with
  | [a], h3, h4 =>
    simp only [List.mem_singleton] at h3 h4
    exact absurd (h3.trans h4.symm) hne
  | a :: b :: r, _, _ => exact ⟨_, rfl, by simp [lineOf, refresh, emit]⟩

/-- C59: if several commands can be meant, no stored command is a proper part of the line, and the line is
typed in capitals without blanks around it, then it becomes the longest text all of them start with. -/
theorem C59_several (env : TermEnv) (l : List (PyStr × Option CmdHelp)) (hc : t.completion = trieOf (storesOf l)) {m m' : PyStr}
    (hm : Candidate t m) (hm' : Candidate t m') (hne : m ≠ m') (hu : typedCommand t = t.inputBuffer)
    (hp : ∀ q, t.completion.contains q = true → ¬ Extends q t.inputBuffer) :
    ∃ t1 r, press env [9] t = (.ok (), t1) ∧ lineOf t1 = ⟨r, []⟩ ∧ IsLcp (Candidate t) r ∧ t.inputBuffer <+: r := by
  obtain ⟨t1, h1, h2⟩ := complete_several hc hm hm' hne
  refine ⟨t1, _, h1, h2, ?_⟩
  rw [hc] at hp
  have h := (C56_lcp l t.inputBuffer hp).1
  rw [← hc] at h
  have h3 : IsLcp (Candidate t) (t.completion.longestCommonPrefix t.inputBuffer) := by
    have := h ⟨m, hm.1, hu ▸ hm.2⟩
    unfold Candidate
    rw [hu]
    exact this
  exact ⟨h3, h3.2 _ fun k hk => hu ▸ hk.2⟩

/-- C59, what else may happen with several candidates: a stored command that is a proper part of the line, or a line
that is in small letters or has blanks around it (so that no stored command starts with it), and the line is erased. -/
theorem C59_erased (env : TermEnv) (l : List (PyStr × Option CmdHelp)) (hc : t.completion = trieOf (storesOf l)) {m m' : PyStr}
    (hm : Candidate t m) (hm' : Candidate t m') (hne : m ≠ m')
    (hp : (∃ q, t.completion.contains q = true ∧ Extends q t.inputBuffer) ∨ ¬ ∃ k, t.completion.contains k = true ∧ t.inputBuffer <+: k) :
    ∃ t1, press env [9] t = (.ok (), t1) ∧ lineOf t1 = ⟨[], []⟩ := by
  obtain ⟨t1, h1, h2⟩ := complete_several hc hm hm' hne
  refine ⟨t1, h1, ?_⟩
  rw [h2]
  rw [hc] at hp ⊢
  have : (trieOf (storesOf l)).longestCommonPrefix t.inputBuffer = [] := by
    by_cases hq : ∃ q, (trieOf (storesOf l)).contains q = true ∧ Extends q t.inputBuffer
    · obtain ⟨q, h3, h4⟩ := hq
      exact C56_hidden _ _ q h3 h4
    · exact (C56_lcp l t.inputBuffer fun q h3 h4 => hq ⟨q, h3, h4⟩).2 (hp.resolve_left hq)
  rw [this]

theorem complete_none (hc : t.completion = trieOf ops) (hn : ¬ ∃ k, Candidate t k) :
    t.completion.keys (some (typedCommand t)) = [] := by
  rw [List.eq_nil_iff_forall_not_mem]
  exact fun k hk => hn ⟨k, (candidates_mem hc k).1 hk⟩

/-- C59: if no stored command can be meant, and the line does not end with an equals sign, nothing at all happens. -/
theorem C59_none (env : TermEnv) (hc : t.completion = trieOf ops) (hn : ¬ ∃ k, Candidate t k)
    (h0 : typedCommand t ≠ []) (he : ¬ [61] <:+ typedCommand t) : press env [9] t = (.ok (), t) := by
  have h := complete_none hc hn
  rw [tab_press]
  unfold complete
  dsimp only
  unfold typedCommand at h h0 he
  rw [h]
  dsimp only
  generalize upper2 (strip2 t.inputBuffer) = s at h0 he
  rcases List.eq_nil_or_concat s with rfl | ⟨s', c, rfl⟩
  · exact absurd rfl h0
  · simp only [List.concat_eq_append, List.getLast?_append, List.getLast?_singleton, Option.some_or]
    rw [if_neg]
    rintro rfl
    exact he ⟨s', by simp⟩

/-- C59: after a stored command and an equals sign the line stays (the syntax may be printed). -/
theorem C59_syntax (env : TermEnv) (hc : t.completion = trieOf ops) (hn : ¬ ∃ k, Candidate t k) {q : PyStr}
    (hq : typedCommand t = q ++ [61]) (hs : t.completion.contains q = true) :
    ∃ t1, press env [9] t = (.ok (), t1) ∧ lineOf t1 = lineOf t := by
  have h := complete_none hc hn
  rw [tab_press]
  unfold complete
  dsimp only
  unfold typedCommand at h hq
  rw [hq] at h ⊢
  rw [h]
  dsimp only
  simp only [List.getLast?_append, List.getLast?_singleton, Option.some_or, if_true, List.dropLast_concat]
  unfold commandSyntax
  simp only [Trie.contains] at hs
  split
  · next e he => rw [he] at hs; cases hs
  · exact ⟨_, rfl, by split <;> rfl⟩
  · exact ⟨_, rfl, rfl⟩

/-- C59: the exceptions of the next theorem are the `IndexError` of `prefix[-1]` and that of looking up the command. -/
theorem C59_exception (env : TermEnv) (hc : t.completion = trieOf ops) (hn : ¬ ∃ k, Candidate t k) :
    (typedCommand t = [] → press env [9] t = (.error .indexError, t)) ∧
    ∀ q e, typedCommand t = q ++ [61] → t.completion.getItem q = .error e → press env [9] t = (.error e, t) := by
  have h := complete_none hc hn
  rw [tab_press]
  unfold complete
  dsimp only
  unfold typedCommand at h ⊢
  rw [h]
  refine ⟨fun hq => by rw [hq]; rfl, fun q e hq hs => ?_⟩
  rw [hq]
  dsimp only
  simp only [List.getLast?_append, List.getLast?_singleton, Option.some_or, if_true, List.dropLast_concat]
  unfold commandSyntax
  rw [hs]

/-- C59 violated: after any other text that ends with an equals sign, and on an empty line if no commands are stored, the key
raises an exception, which ends the terminal. -/
theorem C59_crash (env : TermEnv) (hc : t.completion = trieOf ops) (hn : ¬ ∃ k, Candidate t k) (ha : t.alive = true)
    (hq : typedCommand t = [] ∨ ∃ q, typedCommand t = q ++ [61] ∧ t.completion.contains q = false) :
    (happen env t (.key [9])).alive = false := by
  have h := complete_none hc hn
  have : ∃ e t1, press env [9] t = (.error e, t1) := by
    rw [tab_press]
    unfold complete
    dsimp only
    unfold typedCommand at h hq
    rcases hq with hq | ⟨q, hq, hs⟩
    · rw [hq] at h ⊢
      rw [h]
      exact ⟨_, _, rfl⟩
    · rw [hq] at h ⊢
      rw [h]
      dsimp only
      simp only [List.getLast?_append, List.getLast?_singleton, Option.some_or, if_true, List.dropLast_concat]
      unfold commandSyntax
      simp only [Trie.contains] at hs
      split
      · exact ⟨_, _, rfl⟩
      · next h1 => rw [h1] at hs; cases hs
      · next h1 => rw [h1] at hs; cases hs
  obtain ⟨e, t1, h1⟩ := this
  simp only [happen, ha, if_true, h1]

/-! ### The commands that come with the terminal -/

/-- The trie of the terminal. -/
def atTrie : Trie (Option CmdHelp) := trieOf (storesOf atCommands)
/-- The names of the commands. -/
def atNames : List PyStr := atCommands.map (·.1)

theorem atNames_stored : ∀ k ∈ atNames, atTrie.contains k = true := by decide +kernel
theorem atKeys_names : ∀ k ∈ atTrie.keys none, k ∈ atNames := by decide +kernel

/-- C59: every command of the table is found by the terminal, and nothing else. -/
theorem C59_table (k : PyStr) : atTrie.contains k = true ↔ k ∈ atNames :=
  ⟨fun h => atKeys_names k ((C55_keys (storesOf atCommands)).2 k |>.2 h), atNames_stored k⟩

/-- The texts that a text starts with. -/
def prefixesOf (k : PyStr) : List PyStr := (List.range (k.length + 1)).map k.take

theorem mem_prefixes {p k : PyStr} (h : p <+: k) : p ∈ prefixesOf k := by
  rw [prefixesOf, List.mem_map]
  refine ⟨p.length, ?_, (List.prefix_iff_eq_take.1 h).symm⟩
  rw [List.mem_range]
  have := h.length_le
  omega

theorem at_parts : (atNames.filter fun q => atNames.any fun k => q.isPrefixOf k && Nat.blt q.length k.length) = [py!"ATD", py!"AT+CPIN", py!"AT+CR"] := by
  decide +kernel

/-- The commands that start with a text, each once. -/
def atWith (p : PyStr) : List PyStr := (atNames.filter fun k => p.isPrefixOf k).eraseDups

theorem at_hidden : ∀ q ∈ [py!"ATD", py!"AT+CPIN", py!"AT+CR"], ∀ m ∈ atWith q, ∀ p ∈ prefixesOf m, Nat.blt q.length p.length = true →
    p = py!"AT+CRE" ∨ (atWith p).length ≤ 1 := by decide +kernel

theorem mem_atWith {p k : PyStr} (hk : k ∈ atNames) (hp : p <+: k) : k ∈ atWith p := by
  rw [atWith, List.mem_eraseDups, List.mem_filter]
  exact ⟨hk, by simpa using hp⟩

theorem blt_of_extends {q p : PyStr} (he : Extends q p) : Nat.blt q.length p.length = true := by
  rw [Nat.blt_eq]
  rcases Nat.lt_or_ge q.length p.length with h | h
  · exact h
  · exact absurd (he.1.eq_of_length_le h).symm he.2

/-- C59: with the commands of the table, a line in capitals that may stand for several of them becomes the longest
text they start with, unless it is `AT+CRE`. -/
theorem C59_shipped (env : TermEnv) (hc : t.completion = atTrie) {m m' : PyStr}
    (hm : Candidate t m) (hm' : Candidate t m') (hne : m ≠ m') (hu : typedCommand t = t.inputBuffer)
    (h0 : t.inputBuffer ≠ py!"AT+CRE") :
    ∃ t1 r, press env [9] t = (.ok (), t1) ∧ lineOf t1 = ⟨r, []⟩ ∧ IsLcp (Candidate t) r ∧ t.inputBuffer <+: r := by
  refine C59_several env atCommands hc hm hm' hne hu ?_
  intro q hq he
  rw [hc, C59_table] at hq
  have h1 := hm.1
  have h2 := hm'.1
  have p1 := hm.2
  have p2 := hm'.2
  rw [hu] at p1 p2
  rw [hc, C59_table] at h1 h2
  have hb := blt_of_extends he
  have hq' : q ∈ [py!"ATD", py!"AT+CPIN", py!"AT+CR"] := by
    rw [← at_parts, List.mem_filter]
    refine ⟨hq, ?_⟩
    rw [List.any_eq_true]
    refine ⟨m, h1, ?_⟩
    rw [Nat.blt_eq] at hb
    simp only [Bool.and_eq_true, List.isPrefixOf_iff_prefix, Nat.blt_eq]
    exact ⟨he.1.trans p1, Nat.lt_of_lt_of_le hb p1.length_le⟩
  rcases at_hidden q hq' m (mem_atWith h1 (he.1.trans p1)) _ (mem_prefixes p1) hb with h | h
  · exact h0 h
  · have e1 := mem_atWith h1 p1
    have e2 := mem_atWith h2 p2
    generalize atWith t.inputBuffer = x at *
    match x, e1, e2 with
    | [a], e1, e2 =>
      simp only [List.mem_singleton] at e1 e2
      exact hne (e1.trans e2.symm)
    | a :: b :: r, _, _ => simp at h

/-- The terminal with its commands. -/
def atTerm : Term := start atTrie atCategories

/-- C59 violated with the commands of the table: `AT+CRE`, which `AT+CREG` and `AT+CRES` start with, is erased; so is `at+cre`, and `at`; and a
mistyped `AT+CRG=` ends the terminal. -/
theorem C59_violated :
    (session demoEnv (typed (py!"AT+CRE" ++ [9])) atTerm).inputBuffer = [] ∧
    (session demoEnv (typed (py!"at" ++ [9])) atTerm).inputBuffer = [] ∧
    (session demoEnv (typed (py!"AT+CRG=" ++ [9])) atTerm).alive = false := by decide +kernel

example : (session demoEnv (typed (py!"AT+CM" ++ [9])) atTerm).inputBuffer = py!"AT+CM" := by decide +kernel
example : (session demoEnv (typed (py!"AT+CSC" ++ [9])) atTerm).inputBuffer = py!"AT+CSC" := by decide +kernel
example : (session demoEnv (typed (py!"AT+WT" ++ [9])) atTerm).inputBuffer = py!"AT+WTONE" := by decide +kernel
example : (session demoEnv (typed (py!" at+wt " ++ [9])) atTerm).inputBuffer = py!"AT+WTONE" := by decide +kernel
example : (session demoEnv (typed (py!"AT+FPH" ++ [9])) atTerm).inputBuffer = py!"AT+FPHCTO" := by decide +kernel
example : (session demoEnv (typed (py!"AT+WS" ++ [9])) atTerm).inputBuffer = py!"AT+WS" := by decide +kernel
example : (session demoEnv (typed (py!"AT+CPI" ++ [9])) atTerm).inputBuffer = py!"AT+CPIN" := by decide +kernel
example : lineOf (session demoEnv (typed (py!"AT+CSQ=" ++ [9])) atTerm) = ⟨py!"AT+CSQ=", []⟩ := by decide +kernel
example : ((press demoEnv [9] { completion := trieOf [], categories := [] }).1 matches .error .indexError) = true ∧ ((press demoEnv [9] { completion := atTrie, categories := [], inputBuffer := py!"AT+FOO=", cursorPos := 7 }).1 matches .error .keyError) = true := by decide +kernel
example : (session demoEnv (typed (py!"FOO" ++ [9])) atTerm).inputBuffer = py!"FOO" := by decide +kernel
example : atTrie.len = 149 := by decide +kernel

end Gsm
