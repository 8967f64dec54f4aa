import Verif.Spec.HelpPages
import Verif.Props.Trie
/-! # Lemmas about the pages of the terminal -/
namespace Gsm
open Spec List

theorem screen_append (a b : PyStr) (r : Reading) (col : Option Nat) :
    screen r col (a ++ b) =
      ((screen r col a).1 ++ (screen (screen r col a).2.1 (screen r col a).2.2 b).1,
       (screen (screen r col a).2.1 (screen r col a).2.2 b).2) := by
  induction a generalizing r col with
  | nil => rfl
  | cons c a ih =>
    rw [List.cons_append, screen, screen]
    simp only [ih, List.append_assoc]

/-- `SeenAs` from one colour to another. -/
def SeenFrom (i : Option Nat) (a b : PyStr) (j : Option Nat) : Prop :=
  (screen .text i a).1.map (·.1) = b ∧ (screen .text i a).2 = (.text, j)

theorem seen_append {i j k : Option Nat} {a b a' b' : PyStr} (h : SeenFrom i a b j) (h' : SeenFrom j a' b' k) :
    SeenFrom i (a ++ a') (b ++ b') k := by
  unfold SeenFrom at *
  rw [screen_append, h.2]
  exact ⟨by rw [List.map_append, h.1, h'.1], h'.2⟩

theorem seen_plain {a : PyStr} (h : NoEscape a) (i : Option Nat) : SeenFrom i a a i := by
  induction a with
  | nil => exact ⟨rfl, rfl⟩
  | cons c a ih =>
    have h1 : c ≠ 27 := fun e => h (e ▸ List.mem_cons_self)
    have h2 := ih (fun e => h (List.mem_cons_of_mem _ e))
    unfold SeenFrom at *
    rw [screen, screenStep, if_neg h1]
    exact ⟨by simp [h2.1], h2.2⟩

theorem seen_start {n : Nat} (hn : n < 10) (i : Option Nat) : SeenFrom i (py!"\x1b[1;3" ++ [48 + n] ++ py!"m") [] (some n) := by
  have : n = 0 ∨ n = 1 ∨ n = 2 ∨ n = 3 ∨ n = 4 ∨ n = 5 ∨ n = 6 ∨ n = 7 ∨ n = 8 ∨ n = 9 := by omega
  rcases this with rfl | rfl | rfl | rfl | rfl | rfl | rfl | rfl | rfl | rfl <;> exact ⟨rfl, rfl⟩

theorem seen_reset (i : Option Nat) : SeenFrom i py!"\x1b[0m" [] none := ⟨rfl, rfl⟩

theorem seen_colour {n : Nat} (hn : n < 10) {a b : PyStr} {j : Option Nat} (h : SeenFrom (some n) a b j) (i : Option Nat) :
    SeenFrom i (colour true n a) (colour false n b) none := by
  have := seen_append (seen_append (seen_start hn i) h) (seen_reset j)
  simpa [colour] using this

theorem seen_word {n : Nat} (hn : n < 10) {a : PyStr} (h : NoEscape a) (i : Option Nat) :
    SeenFrom i (colour true n a) (colour false n a) none := seen_colour hn (seen_plain h _) i

theorem seen_nil (i : Option Nat) : SeenFrom i [] [] i := ⟨rfl, rfl⟩

theorem seen_flatMap {α : Type} {f g : α → PyStr} {l : List α} (h : ∀ x ∈ l, SeenFrom none (f x) (g x) none) :
    SeenFrom none (l.flatMap f) (l.flatMap g) none := by
  induction l with
  | nil => exact seen_nil _
  | cons a l ih =>
    rw [List.flatMap_cons, List.flatMap_cons]
    exact seen_append (h a List.mem_cons_self) (ih fun x hx => h x (List.mem_cons_of_mem _ hx))

theorem noEscape_join {sep : PyStr} (hs : NoEscape sep) {l : List PyStr} (h : ∀ x ∈ l, NoEscape x) : NoEscape (pyJoin sep l) := by
  induction l with
  | nil => exact fun h => absurd h (by simp [pyJoin])
  | cons a l ih =>
    cases l with
    | nil => exact h a List.mem_cons_self
    | cons b l =>
      have h1 := h a List.mem_cons_self
      have h2 := ih fun x hx => h x (List.mem_cons_of_mem _ hx)
      unfold NoEscape at *
      simp only [pyJoin, List.mem_append] at *
      simp [h1, hs, h2]

theorem seen_join {sep : PyStr} (hs : NoEscape sep) {α : Type} {f g : α → PyStr} {l : List α}
    (h : ∀ x ∈ l, SeenFrom none (f x) (g x) none) : SeenFrom none (pyJoin sep (l.map f)) (pyJoin sep (l.map g)) none := by
  induction l with
  | nil => exact seen_nil _
  | cons a l ih =>
    cases l with
    | nil => exact h a List.mem_cons_self
    | cons b l =>
      exact seen_append (seen_append (h a List.mem_cons_self) (seen_plain hs _)) (ih fun x hx => h x (List.mem_cons_of_mem _ hx))

theorem noEscape_hanging (v : PyStr) {d : Option PyStr} (h : ∀ x ∈ d, NoEscape x) : NoEscape (hangingText v d) := by
  cases d with
  | none => exact fun h => absurd h (by simp [hangingText])
  | some d =>
    have h := h d rfl
    intro hm
    rw [hangingText, List.mem_flatMap] at hm
    obtain ⟨c, hc, hm⟩ := hm
    split at hm
    · simp [List.mem_replicate] at hm
    · rw [List.mem_singleton] at hm
      exact h (hm ▸ hc)

theorem seen_valueLine {n : Nat} (hn : n < 10) {v : PyStr × Option PyStr} (h : NoEscape v.1 ∧ ∀ d ∈ v.2, NoEscape d) :
    SeenFrom none (valueLine true n v) (valueLine false n v) none :=
  seen_append (seen_append (seen_append (seen_append (seen_plain (by decide) _) (seen_word hn h.1 _)) (seen_plain (by decide) _))
    (seen_plain (noEscape_hanging _ h.2) _)) (seen_plain (by decide) _)

theorem noEscape_separator (d : HelpDetail) : NoEscape (separator d) := by
  unfold separator; split <;> decide

theorem seen_syntax {command : PyStr} (hc : NoEscape command) {d : HelpDetail} (hv : NoEscapeValues d.values) :
    SeenFrom none (helpSyntax true command d) (helpSyntax false command d) none := by
  unfold helpSyntax
  refine seen_append (seen_word (by decide) hc _) ?_
  cases hd : d.values with
  | none => exact seen_nil _
  | some vs =>
    refine seen_append ?_ (seen_join (noEscape_separator d) fun v hm => seen_word (by decide) (hv vs hd v hm).1 _)
    cases takesEquals command
    · exact seen_nil _
    · exact seen_word (by decide) (by decide) _

theorem seen_entry {command : PyStr} (hc : NoEscape command) {h : HelpEntry} (hh : NoEscapeEntry h) :
    SeenFrom none (entryPage true command h) (entryPage false command h) none := by
  unfold entryPage
  have app : ∀ {a b a' b' : PyStr}, SeenFrom none a b none → SeenFrom none a' b' none → SeenFrom none (a ++ a') (b ++ b') none :=
    fun h h' => seen_append h h'
  have p : ∀ {a : PyStr}, NoEscape a → SeenFrom none a a none := fun h => seen_plain h _
  have w : ∀ {n : Nat} {a : PyStr}, n < 10 → NoEscape a → SeenFrom none (colour true n a) (colour false n a) none :=
    fun hn h => seen_word hn h _
  refine app (app (app (app (app (app (app (app (app
    (p (by decide)) (w (by decide) hh.2.1)) (p (by decide))) (p hc)) (p (by decide))) (w (by decide) (by decide)))
    (p (by decide))) (p hh.1)) (p (by decide))) ?_
  cases hd : h.detail with
  | none => exact p (show NoEscape py!"\nNo detailed help available for this command.\n\n" by decide)
  | some d =>
    obtain ⟨h1, h2, h3, h4⟩ := hh.2.2 d hd
    refine app (app (app (app (app (app (app (app (app
      (app (app (w (by decide) (by decide)) (p (by decide))) (p h3)) (p (by decide)))
      (w (by decide) ?_)) (p (by decide))) ?_) ?_) (w (by decide) (by decide))) (p (by decide))) (seen_syntax hc h1)) (p (by decide))
    · cases hl : d.label with
      | none => show NoEscape py!"Values:"; decide
      | some l => exact h4 l hl
    · cases hv : d.values with
      | none => exact p (by decide)
      | some vs => exact app (p (by decide)) (seen_flatMap fun v hm => seen_valueLine (by decide) (h1 vs hv v hm))
    · cases hv : d.returns with
      | none => exact seen_nil _
      | some vs =>
        exact app (app (w (by decide) (by decide)) (p (by decide)))
          (seen_flatMap fun v hm => seen_valueLine (by decide) (h2 vs hv v hm))

theorem seen_general : SeenFrom none (generalPage true) (generalPage false) none := by
  unfold SeenFrom; decide +kernel

theorem seen_noHelp {command : PyStr} (hc : NoEscape command) : SeenFrom none (noHelpPage true command) (noHelpPage false command) none :=
  seen_append (seen_append (seen_plain (by decide) _) (seen_word (by decide) hc _)) (seen_plain (by decide) _)

theorem noEscape_strip {s : PyStr} (h : NoEscape s) : NoEscape (strip2 s) := by
  intro hm
  rw [strip2, List.mem_reverse] at hm
  have h1 := List.dropWhile_subset _ hm
  rw [List.mem_reverse] at h1
  exact h (List.dropWhile_subset _ h1)

/-! ### Lines -/

theorem linesIn_ne (s : PyStr) : ∃ l ls, linesIn s = l :: ls := by
  cases s with
  | nil => exact ⟨_, _, rfl⟩
  | cons c s =>
    rw [linesIn]
    split
    · exact ⟨_, _, rfl⟩
    · cases linesIn s <;> exact ⟨_, _, rfl⟩

theorem linesIn_prefix {a : PyStr} (ha : 10 ∉ a) {s l : PyStr} {ls : List PyStr} (h : linesIn s = l :: ls) :
    linesIn (a ++ s) = (a ++ l) :: ls := by
  induction a with
  | nil => exact h
  | cons c a ih =>
    have h1 : c ≠ 10 := fun e => ha (e ▸ List.mem_cons_self)
    rw [List.cons_append, linesIn, if_neg h1, ih fun e => ha (List.mem_cons_of_mem _ e)]
    rfl

theorem linesIn_hanging (v d : PyStr) {l : PyStr} {ls : List PyStr} (h : linesIn d = l :: ls) :
    linesIn (hangingText v (some d) ++ [10]) = l :: ls.map (List.replicate (v.length + 2) 32 ++ ·) ++ [[]] := by
  have hb : 10 ∉ List.replicate (v.length + 2) 32 := by simp [List.mem_replicate]
  induction d generalizing l ls with
  | nil =>
    cases h
    rfl
  | cons c d ih =>
    obtain ⟨m, ms, hm⟩ := linesIn_ne d
    have h2 := ih hm
    rw [linesIn] at h
    dsimp only [hangingText] at h2 ⊢
    rw [List.flatMap_cons]
    by_cases hc : c = 10
    · rw [if_pos hc] at h ⊢
      cases h
      rw [List.append_assoc, List.cons_append, linesIn, if_pos rfl, linesIn_prefix hb h2, hm]
      rfl
    · rw [if_neg hc, hm] at h
      rw [if_neg hc]
      cases h
      rw [List.append_assoc, linesIn_prefix (by simpa using Ne.symm hc) h2]
      rfl

theorem hanging_indented (v d : PyStr) : hangingText v (some d) = indented (v.length + 2) d := by
  unfold indented
  dsimp only [hangingText]
  generalize hb : List.replicate (v.length + 2) 32 = b
  induction d with
  | nil => rfl
  | cons c d ih =>
    obtain ⟨m, ms, hm⟩ := linesIn_ne d
    rw [hm] at ih
    rw [List.flatMap_cons, ih, linesIn]
    by_cases hc : c = 10
    · rw [if_pos hc, if_pos hc, hm]; rfl
    · rw [if_neg hc, if_neg hc, hm]
      cases ms <;> rfl

theorem valueLine_text (col : Nat) (v : PyStr × Option PyStr) : valueLine false col v = valueText v ++ [10] := by
  obtain ⟨v, d⟩ := v
  cases d with
  | none => simp [valueLine, valueText, colour, hangingText]
  | some d => simp [valueLine, valueText, colour, hanging_indented]

theorem valueLines_text (col : Nat) (vs : List (PyStr × Option PyStr)) : vs.flatMap (valueLine false col) = (vs.map valueText).flatMap (· ++ [10]) := by
  rw [List.flatMap_map]
  congr 1
  funext v
  exact valueLine_text col v

theorem syntax_text (command : PyStr) (d : HelpDetail) : helpSyntax false command d = syntaxText command d := by
  obtain ⟨values, returns, description, label⟩ := d
  cases values <;> cases label <;> simp [helpSyntax, syntaxText, colour, takesEquals, separator]

/-! ### Lists of commands -/

/-- The keys and entries that are listed. -/
theorem listAll_ok {completion : Trie (Option HelpEntry)} {ks : List PyStr} (h : ∀ k ∈ ks, ∃ h, completion.getItem k = .ok (some h)) :
    ∃ l : List (PyStr × HelpEntry), l.map (·.1) = ks ∧ (∀ r ∈ l, completion.getItem r.1 = .ok (some r.2)) ∧
      listAll completion ks = .ok (l.flatMap fun r => listLine r.1 r.2.name) := by
  induction ks with
  | nil => exact ⟨[], rfl, (fun r hr => absurd hr (by simp)), rfl⟩
  | cons k ks ih =>
    obtain ⟨l, h1, h2, h3⟩ := ih fun x hx => h x (List.mem_cons_of_mem _ hx)
    obtain ⟨e, he⟩ := h k List.mem_cons_self
    refine ⟨(k, e) :: l, by rw [List.map_cons, h1], ?_, ?_⟩
    · intro r hr
      rcases List.mem_cons.1 hr with rfl | hr
      · exact he
      · exact h2 r hr
    · rw [listAll, he, h3]; rfl

theorem listCategory_ok {completion : Trie (Option HelpEntry)} (c : PyStr) {ks : List PyStr} (h : ∀ k ∈ ks, ∃ h, completion.getItem k = .ok (some h)) :
    ∃ l : List (PyStr × HelpEntry), l.map (·.1) = ks ∧ (∀ r ∈ l, completion.getItem r.1 = .ok (some r.2)) ∧
      listCategory completion c ks = .ok ((l.filter fun r => decide (c = lower2 r.2.category)).flatMap fun r => listLine r.1 r.2.name) := by
  induction ks with
  | nil => exact ⟨[], rfl, (fun r hr => absurd hr (by simp)), rfl⟩
  | cons k ks ih =>
    obtain ⟨l, h1, h2, h3⟩ := ih fun x hx => h x (List.mem_cons_of_mem _ hx)
    obtain ⟨e, he⟩ := h k List.mem_cons_self
    refine ⟨(k, e) :: l, by rw [List.map_cons, h1], ?_, ?_⟩
    · intro r hr
      rcases List.mem_cons.1 hr with rfl | hr
      · exact he
      · exact h2 r hr
    · rw [listCategory, he, h3]
      by_cases hc : c = lower2 e.category
      · simp only [List.filter_cons, hc, decide_true, if_true, List.flatMap_cons]
        simp [bind, Except.bind, pure, Except.pure]
      · simp only [List.filter_cons, decide_eq_false hc, Bool.false_eq_true, if_false]
        simp [bind, Except.bind, pure, Except.pure, hc]

/-- Everything stored is an entry of a row. -/
theorem helpTrie_row (rows : List (PyStr × HelpEntry)) {k : PyStr} {x : Option HelpEntry}
    (h : (helpTrie rows).getItem k = .ok x) : ∃ e, x = some e ∧ (k, e) ∈ rows := by
  unfold helpTrie trieOf at h
  have : ∀ (l : List (PyStr × HelpEntry)) (ops : List (TrieOp (Option HelpEntry))), (∀ r ∈ l, r ∈ rows) →
      (∀ k x, (trieOf ops).getItem k = .ok x → ∃ e, x = some e ∧ (k, e) ∈ rows) →
      ∀ k x, (trieOf (ops ++ l.map fun r => TrieOp.set r.1 (some r.2))).getItem k = .ok x → ∃ e, x = some e ∧ (k, e) ∈ rows := by
    intro l
    induction l with
    | nil => intro ops _ h; simpa using h
    | cons r l ih =>
      intro ops hm h
      have := ih (ops ++ [.set r.1 (some r.2)]) (fun x hx => hm x (List.mem_cons_of_mem _ hx)) ?_
      · simpa using this
      intro k x hx
      have e : trieOf (ops ++ [TrieOp.set r.1 (some r.2)]) = (trieOf ops).set r.1 (some r.2) := by
        unfold trieOf; rw [List.foldl_append]; rfl
      rw [e] at hx
      obtain ⟨h1, lost, _, h3⟩ := C53_set ops r.1 (some r.2)
      by_cases hk : k = r.1
      · rw [hk, h1] at hx
        cases hx
        exact ⟨_, rfl, hk ▸ hm r List.mem_cons_self⟩
      · rw [h3 k hk] at hx
        split at hx
        · cases hx
        · exact h k x hx
  have := this rows [] (fun _ h => h) (fun k x hx => by simp [trieOf, Trie.empty] at hx; cases k <;> simp [Trie.getItem, Slots.lookup] at hx) k x
  simp only [List.nil_append] at this
  exact this h

theorem helpTrie_some (rows : List (PyStr × HelpEntry)) {k : PyStr} {x : Option HelpEntry}
    (h : (helpTrie rows).getItem k = .ok x) : ∃ e, x = some e := by
  obtain ⟨e, he, _⟩ := helpTrie_row rows h
  exact ⟨e, he⟩

theorem helpTrie_keys (rows : List (PyStr × HelpEntry)) :
    ((helpTrie rows).keys none).Nodup ∧ ∀ k, k ∈ (helpTrie rows).keys none ↔ ∃ e, (helpTrie rows).getItem k = .ok (some e) := by
  obtain ⟨h1, h2⟩ := C55_keys (rows.map fun r => TrieOp.set r.1 (some r.2))
  refine ⟨h1, fun k => (h2 k).trans ?_⟩
  show (helpTrie rows).contains k = true ↔ _
  unfold Trie.contains
  constructor
  · intro h
    cases hg : (helpTrie rows).getItem k with
    | error e => rw [hg] at h; cases h
    | ok x =>
      obtain ⟨e, rfl⟩ := helpTrie_some rows hg
      exact ⟨e, rfl⟩
  · rintro ⟨e, he⟩
    rw [he]

/-! ### Pages end with a line feed -/

/-- Empty, or the last character is a line feed. -/
def LineEnded (s : PyStr) : Prop := s = [] ∨ s.getLast? = some 10

theorem lineEnded_append {a b : PyStr} (ha : LineEnded a) (hb : LineEnded b) : LineEnded (a ++ b) := by
  rcases hb with rfl | hb
  · rwa [List.append_nil]
  · right; rw [List.getLast?_append, hb]; rfl

theorem lineEnded_nl (a : PyStr) : LineEnded (a ++ [10]) := .inr (by simp)

theorem lineEnded_flatMap {α : Type} {f : α → PyStr} {l : List α} (h : ∀ x, LineEnded (f x)) : LineEnded (l.flatMap f) := by
  induction l with
  | nil => exact .inl rfl
  | cons a l ih => exact lineEnded_append (h a) ih

theorem lineEnded_listAll {completion : Trie (Option HelpEntry)} {ks : List PyStr} {p : PyStr} (h : listAll completion ks = .ok p) :
    LineEnded p := by
  induction ks generalizing p with
  | nil => cases h; exact .inl rfl
  | cons k ks ih =>
    rw [listAll] at h
    simp only [bind, Except.bind] at h
    split at h
    · cases h
    · split at h
      · cases h
      · split at h
        · cases h
        · rename_i e
          cases h
          exact lineEnded_append (lineEnded_nl _) (ih e)

theorem lineEnded_listCategory {completion : Trie (Option HelpEntry)} {c : PyStr} {ks : List PyStr} {p : PyStr}
    (h : listCategory completion c ks = .ok p) : LineEnded p := by
  induction ks generalizing p with
  | nil => cases h; exact .inl rfl
  | cons k ks ih =>
    rw [listCategory] at h
    simp only [bind, Except.bind] at h
    split at h
    · cases h
    · split at h
      · cases h
      · split at h
        · cases h
        · rename_i e
          cases h
          split
          · exact lineEnded_append (lineEnded_nl _) (ih e)
          · exact ih e

theorem getLast_page {a : PyStr} (h : LineEnded a) : (10 :: a).getLast? = some 10 := by
  rcases h with rfl | h
  · rfl
  · rw [List.getLast?_cons, h]; rfl

theorem helpPage_last (use : Bool) (completion : Trie (Option HelpEntry)) (arg : PyStr) :
    (helpPage use completion arg).getLast? = some 10 := by
  have key : ∀ (a b : PyStr), b.getLast? = some 10 → (a ++ b).getLast? = some 10 := fun a b h => by
    rw [List.getLast?_append, h]; rfl
  unfold helpPage
  split
  · exact key _ _ rfl
  · split
    · unfold entryPage
      refine key _ _ ?_
      split
      · rfl
      · exact key _ _ rfl
    · exact key _ _ rfl
    · exact key _ _ rfl

theorem lower2_idem (s : PyStr) : lower2 (lower2 s) = lower2 s := by
  unfold lower2
  rw [List.map_map]
  refine List.map_congr_left fun c _ => ?_
  simp only [Function.comp]
  by_cases h : 65 ≤ c ∧ c ≤ 90
  · rw [if_pos h, if_neg (by omega)]
  · rw [if_neg h, if_neg h]

theorem afterSpace_lower (s : PyStr) : afterSpace (lower2 s) = (afterSpace s).map lower2 := by
  induction s with
  | nil => rfl
  | cons c s ih =>
    have : lower2 (c :: s) = (if 65 ≤ c ∧ c ≤ 90 then c + 32 else c) :: lower2 s := rfl
    rw [this, afterSpace, afterSpace]
    by_cases hc : c = 32
    · rw [if_pos hc, if_pos (by rw [if_neg (by omega)]; exact hc)]; rfl
    · rw [if_neg hc, if_neg (by split <;> omega), ih]

end Gsm
