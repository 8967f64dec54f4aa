import Verif.Lemmas.HelpPages
/-! # C87: the pages the terminal prints -/
namespace Gsm
open Spec List

/-! ### Colours -/

/-- C87: with colours a page of help shows the same characters as without, and leaves the colour as it was. -/
theorem C87_colours (completion : Trie (Option HelpEntry)) (arg : PyStr) (ha : NoEscape arg)
    (hc : ∀ k h, completion.getItem k = .ok (some h) → NoEscapeEntry h) :
    SeenAs (helpPage true completion arg) (helpPage false completion arg) := by
  show SeenFrom none _ _ none
  unfold helpPage
  by_cases h0 : strip2 arg = []
  · rw [if_pos h0, if_pos h0]
    exact seen_general
  · rw [if_neg h0, if_neg h0]
    cases hg : completion.getItem (upper2 (strip2 arg)) with
    | error e => exact seen_noHelp (noEscape_strip ha)
    | ok x =>
      cases x with
      | none => exact seen_noHelp (noEscape_strip ha)
      | some h => exact seen_entry (noEscape_strip ha) (hc _ h hg)

/-- C87: so does the line that TAB prints; but of it only the command and `=` are white. -/
theorem C87_tab_colours (completion : Trie (Option HelpEntry)) (command : PyStr) (ha : NoEscape command)
    (hc : ∀ k h, completion.getItem k = .ok (some h) → NoEscapeEntry h) :
    (∀ e, tabSyntax true completion command = .error e ↔ tabSyntax false completion command = .error e) ∧
    (tabSyntax true completion command = .ok none ↔ tabSyntax false completion command = .ok none) ∧
    ∀ a, tabSyntax true completion command = .ok (some a) → ∃ b, tabSyntax false completion command = .ok (some b) ∧ SeenAs a b := by
  unfold tabSyntax
  cases hg : completion.getItem command with
  | error e => exact ⟨fun _ => Iff.rfl, Iff.rfl, (fun a h => by cases h)⟩
  | ok x =>
    cases x with
    | none => exact ⟨fun _ => Iff.rfl, Iff.rfl, (fun a h => by cases h)⟩
    | some h =>
      simp only [bind, Except.bind]
      cases hd : h.detail with
      | none => exact ⟨fun _ => Iff.rfl, Iff.rfl, (fun a h => by cases h)⟩
      | some d =>
        refine ⟨(fun e => ⟨(fun h => by cases h), (fun h => by cases h)⟩), ⟨(fun h => by cases h), (fun h => by cases h)⟩, ?_⟩
        intro a h1
        cases h1
        refine ⟨_, rfl, ?_⟩
        have hv := ((hc _ h hg).2.2 d hd).1
        refine seen_append (seen_append (seen_plain (by decide) _) (seen_colour (j := none) (by decide) ?_ none)) (seen_plain (by decide) _)
        refine seen_append (seen_word (by decide) ha _) ?_
        cases hw : d.values with
        | none => exact seen_nil _
        | some vs =>
          refine seen_append ?_ (seen_plain (noEscape_join (noEscape_separator d) ?_) _)
          · cases takesEquals command
            · exact seen_nil _
            · exact seen_word (by decide) (by decide) _
          · intro x hx
            obtain ⟨v, hm, rfl⟩ := List.mem_map.1 hx
            exact (hv vs hw v hm).1

theorem shipped_clean : ∀ r ∈ atRows, NoEscapeEntry r.2 := by decide +kernel

/-- C87: so with the built-in table, for everything entered without escape characters. -/
theorem C87_shipped_colours (arg : PyStr) (ha : NoEscape arg) :
    SeenAs (helpPage true (helpTrie atRows) arg) (helpPage false (helpTrie atRows) arg) :=
  C87_colours _ arg ha fun k h hg => by
    obtain ⟨e, he, hm⟩ := helpTrie_row atRows hg
    cases he
    exact shipped_clean _ hm

example : helpPage true (helpTrie atRows) py!" foo " = py!"\r No help available for: \x1b[1;37mfoo\x1b[0m\n" := by decide +kernel
example : helpPage false (helpTrie atRows) py!"at+wopn" =
    py!"\n\nSelection of Preferred PLMN List (at+wopn)\n\nCategory: Network Service\n\nNo detailed help available for this command.\n\n" := by
  decide +kernel
-- the values are not white, as the inner reset ends the outer colour
example : (screen .text none (colour true white (colour true white py!"A" ++ py!"B"))).1 = [(65, some 7), (66, none)] := by decide

/-! ### Layout -/

/-- C87: all lines of the meaning of a value begin in the same column, behind the value. -/
theorem C87_columns (col : Nat) (v d : PyStr) (hv : 10 ∉ v) :
    ∃ l ls, linesIn d = l :: ls ∧
      linesIn (valueLine false col (v, some d)) =
        ((py!" " ++ v ++ py!" ") ++ l) :: ls.map (List.replicate (py!" " ++ v ++ py!" ").length 32 ++ ·) ++ [[]] := by
  obtain ⟨l, ls, h⟩ := linesIn_ne d
  refine ⟨l, ls, h, ?_⟩
  have h1 := linesIn_prefix (a := py!" " ++ v ++ py!" ") (by simp [hv]) (linesIn_hanging v d h)
  have e : valueLine false col (v, some d) = (py!" " ++ v ++ py!" ") ++ (hangingText v (some d) ++ [10]) := by
    simp [valueLine, colour]
  rw [e, h1]
  simp

/-- C87: the page of a stored command begins with its name and category. -/
theorem C87_heading (completion : Trie (Option HelpEntry)) {arg : PyStr} {h : HelpEntry} (h0 : strip2 arg ≠ [])
    (hs : completion.getItem (upper2 (strip2 arg)) = .ok (some h)) (ha : 10 ∉ strip2 arg) (hn : 10 ∉ h.name) (hc : 10 ∉ h.category) :
    (linesIn (helpPage false completion arg)).take 5 =
      [[], [], h.name ++ py!" (" ++ strip2 arg ++ py!")", [], py!"Category: " ++ h.category] := by
  obtain ⟨rest, hr⟩ : ∃ rest, helpPage false completion arg =
      10 :: 10 :: ((h.name ++ py!" (" ++ strip2 arg ++ py!")") ++ 10 :: 10 :: ((py!"Category: " ++ h.category) ++ 10 :: rest)) := by
    unfold helpPage
    rw [if_neg h0, hs]
    simp only [entryPage, colour, Bool.false_eq_true, if_false]
    exact ⟨_, by simp only [List.append_assoc, List.cons_append, List.nil_append]; rfl⟩
  have a1 : linesIn (10 :: rest) = [] :: linesIn rest := rfl
  have a2 := linesIn_prefix (a := py!"Category: " ++ h.category) (by simp [hc]) a1
  have a3 : ∀ s, linesIn (10 :: s) = [] :: linesIn s := fun s => rfl
  have a4 := linesIn_prefix (a := h.name ++ py!" (" ++ strip2 arg ++ py!")") (by simp [hn, ha]) (a3 (10 :: ((py!"Category: " ++ h.category) ++ 10 :: rest)))
  rw [hr, a3, a3, a4, a3, a2]
  simp

/-- C87: all of the page of a stored command. -/
theorem C87_page (completion : Trie (Option HelpEntry)) {arg : PyStr} {h : HelpEntry} (h0 : strip2 arg ≠ [])
    (hs : completion.getItem (upper2 (strip2 arg)) = .ok (some h)) :
    helpPage false completion arg = (pageParagraphs (strip2 arg) h).flatMap (· ++ [10]) := by
  unfold helpPage
  rw [if_neg h0, hs]
  obtain ⟨category, name, detail⟩ := h
  cases detail with
  | none => simp [entryPage, pageParagraphs, colour]
  | some d =>
    simp only [entryPage, pageParagraphs, colour, Bool.false_eq_true, if_false, valueLines_text, syntax_text]
    cases d.values <;> cases d.returns <;> simp

example : helpPage false (helpTrie [(py!"AT+A", ⟨py!"One", py!"A", some ⟨some [(py!"<n>", some py!"0: off\n1: on"), (py!"<m>", none)], some [(py!"<r>", some py!"r")], py!"D", none⟩⟩)]) py!"at+a" =
    py!"\n\nA (at+a)\n\nCategory: One\nDescription: D\nValues: \n <n> 0: off\n     1: on\n <m> \nResponse Values: \n <r> r\nCommand Syntax:\n at+a=<n>,<m>\n\n" := by decide +kernel

example : valueLine false 0 (py!"<n>", some py!"0: off\n1: on") = py!" <n> 0: off\n     1: on\n" := by decide

/-! ### Which page -/

/-- C87: for a command that is not stored there is no help. -/
theorem C87_unknown (use : Bool) (rows : List (PyStr × HelpEntry)) {arg : PyStr} (h0 : strip2 arg ≠ []) :
    helpPage use (helpTrie rows) arg = noHelpPage use (strip2 arg) ↔ upper2 (strip2 arg) ∉ (helpTrie rows).keys none := by
  rw [(helpTrie_keys rows).2]
  unfold helpPage
  rw [if_neg h0]
  cases hg : (helpTrie rows).getItem (upper2 (strip2 arg)) with
  | error e => simp
  | ok x =>
    obtain ⟨e, rfl⟩ := helpTrie_some rows hg
    refine ⟨fun h => ?_, fun h => absurd ⟨e, rfl⟩ h⟩
    simp [entryPage, noHelpPage] at h

/-- C87: with its built-in table the terminal knows exactly the commands of the table, whatever the case and the blanks around. -/
theorem C87_known (use : Bool) {arg : PyStr} (h0 : strip2 arg ≠ []) :
    helpPage use (helpTrie atRows) arg ≠ noHelpPage use (strip2 arg) ↔ upper2 (strip2 arg) ∈ atRows.map (·.1) := by
  rw [Ne, C87_unknown use atRows h0, Classical.not_not]
  have k1 : ∀ k ∈ (helpTrie atRows).keys none, k ∈ atRows.map (·.1) := by decide +kernel
  have k2 : ∀ k ∈ atRows.map (·.1), k ∈ (helpTrie atRows).keys none := by decide +kernel
  exact ⟨k1 _, k2 _⟩

/-- Whether the stored entry is that of the row. -/
def rowStored (r : PyStr × HelpEntry) : Bool :=
  match (helpTrie atRows).getItem r.1 with
  | .ok (some h) => decide (h = r.2)
  | _ => false

/-- C87 is violated for one row of the built-in table: of two rows for `AT+WOPN` the second is used, so that nothing tells
that it reads the operator name. Every other row is used. -/
theorem C87_rows : (∀ r ∈ atRows, rowStored r = true ∨ (r.1 = py!"AT+WOPN" ∧ r.2.name = py!"Read Operator Name")) ∧
    ∃ r ∈ atRows, rowStored r = false := by decide +kernel

/-- C87: the three ways to ask for help give the same page. -/
theorem C87_ways (use : Bool) (completion : Trie (Option HelpEntry)) (categories : List PyStr) (w : PyStr) (hw : w ≠ []) :
    (¬ py!"??" <:+ w → pageFor use completion categories (py!"help " ++ w) = some (.ok (helpPage use completion w))) ∧
    (w.head? ≠ some 63 → w.getLast? ≠ some 61 → pageFor use completion categories (w ++ py!"??") = some (.ok (helpPage use completion w))) ∧
    (w.head? ≠ some 63 → pageFor use completion categories (w ++ py!"=??") = some (.ok (helpPage use completion w))) ∧
    (2 ≤ w.length → pageFor use completion categories (py!"?" ++ w) = some (.ok (helpPage use completion w))) := by
  obtain ⟨a, u, rfl⟩ : ∃ a u, w = a :: u := by
    cases w with
    | nil => exact absurd rfl hw
    | cons a u => exact ⟨a, u, rfl⟩
  refine ⟨fun h => ?_, fun h h' => ?_, fun h => ?_, fun h => ?_⟩
  · unfold pageFor
    dsimp only
    rw [if_neg (by simp), if_neg, if_pos (by simp [lower2])]
    · rfl
    · rintro ⟨-, h2⟩
      cases u with
      | nil =>
        have := List.suffix_iff_eq_drop.1 h2
        simp at this
      | cons b u => exact h (List.suffix_of_suffix_length_le h2 (List.suffix_append _ _) (by simp))
  · have hl : ((a :: u) ++ py!"??")[((a :: u) ++ py!"??").length - 3]? = (a :: u).getLast? := by
      rw [List.getElem?_append_left (by simp), List.getLast?_eq_getElem?]
      simp
    unfold pageFor
    dsimp only
    rw [if_neg (by simpa using h), if_pos (by simp), hl, if_neg h']
    simp
  · have hl : ((a :: u) ++ py!"=??")[((a :: u) ++ py!"=??").length - 3]? = some 61 := by
      rw [List.getElem?_append_right (by simp)]
      simp
    unfold pageFor
    dsimp only
    rw [if_neg (by simpa using h), if_pos ⟨by simp, by exact ⟨(a :: u) ++ [61], by simp⟩⟩, hl, if_pos rfl]
    simp
  · unfold pageFor
    dsimp only
    rw [if_pos (by simp at h ⊢; omega)]
    rfl

/-- C87: any one character may stand between `help` and the command; it is dropped. -/
theorem C87_separator (use : Bool) (completion : Trie (Option HelpEntry)) (categories : List PyStr) (c : Nat) (w : PyStr)
    (h : ¬ py!"??" <:+ c :: w) :
    pageFor use completion categories (py!"help" ++ c :: w) = some (.ok (helpPage use completion w)) := by
  unfold pageFor
  dsimp only
  rw [if_neg (by simp), if_neg, if_pos (by simp [lower2])]
  · rfl
  · rintro ⟨-, h2⟩
    cases w with
    | nil =>
      have := List.suffix_iff_eq_drop.1 h2
      simp at this
    | cons b u => exact h (List.suffix_of_suffix_length_le h2 (List.suffix_append _ _) (by simp))

example (completion : Trie (Option HelpEntry)) :
    pageFor false completion [] py!"help=AT+CSQ" = some (.ok (helpPage false completion py!"AT+CSQ")) :=
  C87_separator false completion [] 61 py!"AT+CSQ" (by decide)

/-- C87: but `?` and a single character are sent to the modem. -/
theorem C87_short (use : Bool) (completion : Trie (Option HelpEntry)) (categories : List PyStr) (c : Nat) :
    pageFor use completion categories [63, c] = none := by
  unfold pageFor
  simp [lower2]

/-- C87: `pageFor` is a refinement of `kindOf`: it prints a page exactly for the inputs of these kinds, and each page
ends with a line feed. -/
theorem C87_kinds (use : Bool) (completion : Trie (Option HelpEntry)) (categories : List PyStr) (s : PyStr) :
    ((pageFor use completion categories s).isSome = true ↔ Term.kindOf categories s ∈ [.help, .categories, .list]) ∧
    ∀ p, pageFor use completion categories s = some (.ok p) → p.getLast? = some 10 := by
  unfold pageFor Term.kindOf
  dsimp only
  by_cases h1 : 2 < s.length ∧ s.head? = some 63
  · rw [if_pos h1, if_pos h1]
    exact ⟨by simp, (fun p hp => by cases hp; exact helpPage_last _ _ _)⟩
  rw [if_neg h1, if_neg h1]
  by_cases h2 : 2 < s.length ∧ py!"??" <:+ s
  · rw [if_pos h2, if_pos h2]
    exact ⟨by simp, (fun p hp => by cases hp; exact helpPage_last _ _ _)⟩
  rw [if_neg h2, if_neg h2]
  by_cases h3 : py!"help" <+: lower2 s
  · rw [if_pos h3, if_pos h3]
    exact ⟨by simp, (fun p hp => by cases hp; exact helpPage_last _ _ _)⟩
  rw [if_neg h3, if_neg h3]
  have tail : ((if py!"load" <+: lower2 s ∧ (afterSpace s).isSome = true then Term.Input.script (strip2 ((afterSpace s).getD []))
      else if s = [] then Term.Input.nothing else if py!"at+cmgs=" <+: lower2 s then Term.Input.sms else Term.Input.command) ∈
      [Term.Input.help, .categories, .list]) ↔ False := by
    split
    · simp
    · split
      · simp
      · split <;> simp
  by_cases h4 : py!"ls" <+: lower2 s
  · rw [if_pos h4]
    by_cases h5 : lower2 s = py!"lscat"
    · rw [if_pos h5, if_pos h5]
      refine ⟨by simp, fun p hp => ?_⟩
      cases hp
      exact getLast_page (lineEnded_flatMap fun c => lineEnded_nl c)
    rw [if_neg h5, if_neg h5]
    by_cases h6 : lower2 s = py!"ls"
    · rw [if_pos h6, if_pos h6]
      refine ⟨by simp, fun p hp => ?_⟩
      cases hl : listAll completion (completion.keys none) with
      | error e => rw [hl] at hp; cases hp
      | ok r => rw [hl] at hp; cases hp; exact getLast_page (lineEnded_listAll hl)
    have hs := afterSpace_lower s
    cases ha : afterSpace s with
    | none =>
      rw [ha] at hs tail
      rw [if_neg h6, if_neg h6, hs]
      dsimp only [Option.map_none]
      rw [if_neg (fun h => absurd h.2 (by simp)), tail]
      exact ⟨by simp, (fun p hp => by cases hp)⟩
    | some c =>
      rw [ha] at hs tail
      rw [if_neg h6, if_neg h6, hs]
      dsimp only [Option.map_some]
      rw [lower2_idem]
      by_cases hc : lower2 c ∈ categories.map lower2
      · rw [if_pos hc, if_pos (show _ ∧ _ from ⟨h4, by simpa using hc⟩)]
        refine ⟨by simp, fun p hp => ?_⟩
        cases hl : listCategory completion (lower2 c) (completion.keys none) with
        | error e => rw [hl] at hp; cases hp
        | ok r => rw [hl] at hp; cases hp; exact getLast_page (lineEnded_listCategory hl)
      · rw [if_neg hc, if_neg (fun h => hc (by simpa using h.2)), tail]
        exact ⟨by simp, (fun p hp => by cases hp)⟩
  · have n1 : lower2 s ≠ py!"lscat" := fun h => h4 (by rw [h]; decide)
    have n2 : lower2 s ≠ py!"ls" := fun h => h4 (by rw [h]; decide)
    rw [if_neg h4, if_neg n1, if_neg n2, if_neg (fun h => h4 h.1), tail]
    exact ⟨by simp, (fun p hp => by cases hp)⟩

/-! ### Lists -/

/-- C87: `ls` lists every stored command exactly once; `ls` with a category exactly those of the category. -/
theorem C87_list (use : Bool) (rows : List (PyStr × HelpEntry)) (categories : List PyStr) (s : PyStr) :
    (lower2 s = py!"ls" → ∃ p, pageFor use (helpTrie rows) categories s = some (.ok p) ∧ ListsCommands (helpTrie rows) (fun _ => True) p) ∧
    ∀ c ∈ categories, lower2 s = py!"ls " ++ lower2 c → ¬ py!"??" <:+ s →
      ∃ p, pageFor use (helpTrie rows) categories s = some (.ok p) ∧
        ListsCommands (helpTrie rows) (fun h => lower2 h.category = lower2 c) p := by
  obtain ⟨hn, hk⟩ := helpTrie_keys rows
  have first : ∀ t, lower2 s = 108 :: t → s.head? ≠ some 63 := by
    intro t ht hh
    cases s with
    | nil => cases hh
    | cons a s =>
      simp only [List.head?_cons, Option.some.injEq] at hh
      subst hh
      exact absurd (List.cons.inj ht).1 (by decide)
  constructor
  · intro h
    have hlen : s.length = 2 := by
      have := congrArg List.length h
      simpa [lower2] using this
    obtain ⟨l, h1, h2, h3⟩ := listAll_ok fun k hx => (hk k).1 hx
    refine ⟨10 :: l.flatMap fun r => listLine r.1 r.2.name, ?_, l, by rw [h1]; exact hn, ?_, rfl⟩
    · unfold pageFor
      dsimp only
      rw [if_neg (by omega), if_neg (by omega), h, if_neg (by decide), if_pos (by decide), if_neg (by decide), if_pos rfl, h3]
      rfl
    · intro k e
      refine ⟨fun hm => ⟨h2 _ hm, trivial⟩, fun hm => ?_⟩
      have hx : k ∈ l.map (·.1) := h1 ▸ (hk k).2 ⟨e, hm.1⟩
      obtain ⟨r, hr, rfl⟩ := List.mem_map.1 hx
      have := h2 r hr
      rw [hm.1] at this
      cases this
      exact hr
  · intro c hc h hq
    obtain ⟨l, h1, h2, h3⟩ := listCategory_ok (lower2 c) fun k hx => (hk k).1 hx
    refine ⟨10 :: (l.filter fun r => decide (lower2 c = lower2 r.2.category)).flatMap fun r => listLine r.1 r.2.name, ?_, l.filter _, ?_, ?_, rfl⟩
    · unfold pageFor
      dsimp only
      rw [if_neg (fun x => first _ h x.2), if_neg (fun x => hq x.2), h, if_neg, if_pos, if_neg, if_neg]
      · have : afterSpace (py!"ls " ++ lower2 c) = some (lower2 c) := rfl
        rw [this]
        dsimp only
        rw [lower2_idem, if_pos (List.mem_map.2 ⟨c, hc, rfl⟩), h3]
        rfl
      · simp
      · simp
      · exact ⟨32 :: lower2 c, rfl⟩
      · simp
    · exact (h1 ▸ hn : (l.map (·.1)).Nodup).sublist ((List.filter_sublist).map _)
    · intro k e
      rw [List.mem_filter]
      constructor
      · rintro ⟨hm, hd⟩
        exact ⟨h2 _ hm, (of_decide_eq_true hd).symm⟩
      · intro hm
        have hx : k ∈ l.map (·.1) := h1 ▸ (hk k).2 ⟨e, hm.1⟩
        obtain ⟨r, hr, rfl⟩ := List.mem_map.1 hx
        have := h2 r hr
        rw [hm.1] at this
        cases this
        exact ⟨hr, decide_eq_true hm.2.symm⟩

example : (pageFor true (helpTrie [(py!"AT+A", ⟨py!"One", py!"A", none⟩), (py!"AT+B", ⟨py!"Two", py!"B", none⟩)]) [py!"One", py!"Two"] py!"LS two"
    matches some (.ok py!"\nAT+B     - B\n")) = true := by decide +kernel

/-- C87: with the built-in table each command is listed under exactly one category. -/
theorem C87_partition (k : PyStr) (h : HelpEntry) (hk : (helpTrie atRows).getItem k = .ok (some h)) :
    ∃ c ∈ atCategories, lower2 h.category = lower2 c ∧ ∀ c' ∈ atCategories, lower2 h.category = lower2 c' → c' = c := by
  obtain ⟨e, he, hm⟩ := helpTrie_row atRows hk
  cases he
  have h1 : ∀ r ∈ atRows, r.2.category ∈ atCategories := by decide +kernel
  have h2 : ∀ c ∈ atCategories, ∀ c' ∈ atCategories, lower2 c = lower2 c' → c' = c := by decide +kernel
  exact ⟨h.category, h1 _ hm, rfl, fun c' hc' e => h2 _ (h1 _ hm) _ hc' e⟩

/-- C87: in a list the names begin in column 11 unless the command is longer than eight characters, as only
`AT+FCLASS` and `AT+FPHCTO` are. -/
theorem C87_list_column (c n : PyStr) :
    (∃ a : PyStr, a.length = max 8 c.length + 3 ∧ c <+: a ∧ listLine c n = a ++ n ++ [10]) ∧
    ∀ k ∈ atRows.map (·.1), 8 < k.length ↔ k = py!"AT+FCLASS" ∨ k = py!"AT+FPHCTO" := by
  refine ⟨⟨c ++ List.replicate (8 - c.length) 32 ++ py!" - ", ?_, ⟨_, (List.append_assoc _ _ _).symm⟩, rfl⟩, by decide +kernel⟩
  simp only [List.length_append, List.length_replicate, List.length_cons, List.length_nil]
  omega

/-! ### Syntax -/

/-- C87: the syntax that TAB prints is that of the help page. -/
theorem C87_syntax (completion : Trie (Option HelpEntry)) (k : PyStr) (h0 : k ≠ []) (h1 : strip2 k = k) (h2 : upper2 k = k) (t : PyStr)
    (ht : tabSyntax false completion k = .ok (some t)) :
    ∃ syn rest, t = py!"\r Syntax: " ++ syn ++ py!"\n" ∧
      helpPage false completion k = rest ++ py!"Command Syntax:\n " ++ syn ++ py!"\n\n" := by
  unfold tabSyntax at ht
  cases hg : completion.getItem k with
  | error e => rw [hg] at ht; cases ht
  | ok x =>
    cases x with
    | none => rw [hg] at ht; cases ht
    | some h =>
      rw [hg] at ht
      simp only [bind, Except.bind] at ht
      cases hd : h.detail with
      | none => rw [hd] at ht; cases ht
      | some d =>
        rw [hd] at ht
        cases ht
        unfold helpPage
        rw [h1, if_neg h0, h2, hg]
        simp only [entryPage, hd, helpSyntax, colour, Bool.false_eq_true, if_false]
        have assoc : ∀ A B L N S E : PyStr, A ++ (B ++ L ++ N ++ S ++ E) = (A ++ B) ++ (L ++ N) ++ S ++ E := by simp
        exact ⟨_, _, rfl, assoc _ _ _ _ _ _⟩

example : tabSyntax false (helpTrie atRows) py!"AT+VTS" = .ok (some py!"\r Syntax: AT+VTS=<Tone>\n") := by decide +kernel

/-- The two transcriptions of the table agree. -/
theorem C87_tables : atRows.map (fun r => (r.1, some (CmdHelp.mk r.2.category r.2.name r.2.detail.isSome))) = atCommands := by
  decide +kernel

end Gsm
