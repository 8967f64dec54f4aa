import Verif.Spec.CommandLine
/-! # Lemmas on the parsers of command lines -/
namespace Gsm

theorem splitEquals_none {t : PyStr} (h : 61 ∉ t) : splitEquals t = none := by
  induction t with
  | nil => rfl
  | cons c t ih =>
    simp only [List.mem_cons, not_or] at h
    simp [splitEquals, Ne.symm h.1, ih h.2]

theorem splitEquals_eq {n : PyStr} (v : PyStr) (h : 61 ∉ n) : splitEquals (n ++ 61 :: v) = some (n, v) := by
  induction n with
  | nil => simp [splitEquals]
  | cons c n ih =>
    simp only [List.mem_cons, not_or] at h
    simp [splitEquals, Ne.symm h.1, ih h.2]

theorem find_key {α β : Type} [DecidableEq β] (f : α → β) : ∀ {l : List α} {a : α}, (l.map f).Nodup → a ∈ l → l.find? (fun x => f x = f a) = some a
  | x :: l, a, hn, ha => by
    simp only [List.map_cons, List.nodup_cons] at hn
    by_cases hx : f x = f a
    · rcases List.mem_cons.1 ha with rfl | ha
      · simp
      · exact absurd (hx ▸ List.mem_map_of_mem ha) hn.1
    · rcases List.mem_cons.1 ha with rfl | ha
      · exact absurd rfl hx
      · simp only [List.find?_cons, hx, decide_false]; exact find_key f hn.2 ha

theorem findShort_mem {opts : List Opt} (hd : DistinctOpts opts) {o : Opt} (h : o ∈ opts) : findShort opts o.short = some o :=
  find_key (fun o : Opt => o.short) hd.shorts h

theorem findShort_none {opts : List Opt} {c : Nat} (h : ∀ o ∈ opts, o.short ≠ c) : findShort opts c = none := by
  simpa [findShort, List.find?_eq_none] using h

theorem filter_single {α : Type} {p : α → Bool} : ∀ {l : List α} {a : α}, l.Nodup → a ∈ l → (∀ x ∈ l, p x = true ↔ x = a) → l.filter p = [a]
  | x :: l, a, hn, ha, h => by
    simp only [List.nodup_cons] at hn
    by_cases hx : x = a
    · subst hx
      rw [List.filter_cons_of_pos ((h x (by simp)).2 rfl)]
      congr 1
      rw [List.filter_eq_nil_iff]
      intro y hy hp
      exact hn.1 (((h y (by simp [hy])).1 hp) ▸ hy)
    · rw [List.filter_cons_of_neg (fun hp => hx ((h x (by simp)).1 hp))]
      rcases List.mem_cons.1 ha with rfl | ha
      · exact absurd rfl hx
      · exact filter_single hn.2 ha fun y hy => h y (by simp [hy])

theorem DistinctOpts.nodup {opts : List Opt} (hd : DistinctOpts opts) : opts.Nodup := by
  have := hd.shorts
  exact List.Pairwise.of_map _ (fun a b hab h => hab (by rw [h])) this

theorem longMatches_stands {opts : List Opt} (hd : DistinctOpts opts) {name : PyStr} {o : Opt} (h : Stands opts name o) : longMatches opts name = [o] := by
  obtain ⟨ho, -, -, h⟩ := h
  unfold longMatches
  rcases h with rfl | h
  · rw [find_key (fun o : Opt => o.long) hd.longs ho]
  · split
    · next o' hf =>
      have h1 := List.mem_of_find?_eq_some hf
      have h2 := List.find?_some hf
      simp only [decide_eq_true_eq] at h2
      rw [(h o' h1).1 (h2 ▸ List.prefix_refl _)]
    · exact filter_single hd.nodup ho fun x hx => by rw [List.isPrefixOf_iff_prefix]; exact h x hx

theorem longMatches_none {opts : List Opt} {name : PyStr} (h : ∀ o ∈ opts, ¬ name <+: o.long) : longMatches opts name = [] := by
  unfold longMatches
  split
  · next o' hf =>
    have h2 := List.find?_some hf
    simp only [decide_eq_true_eq] at h2
    exact absurd (h2 ▸ List.prefix_refl _) (h o' (List.mem_of_find?_eq_some hf))
  · rw [List.filter_eq_nil_iff]
    intro x hx
    rw [List.isPrefixOf_iff_prefix]
    exact h x hx

/-- Only help has the name of help. -/
theorem name_help {opts : List Opt} (hd : DistinctOpts opts) {o : Opt} (ho : o ∈ opts) (h : o ≠ helpOpt) : o.long ≠ helpOpt.long := by
  intro e
  have h1 := find_key (fun o : Opt => o.long) hd.longs ho
  have h2 := find_key (fun o : Opt => o.long) hd.longs hd.help
  simp only [e] at h1
  rw [h1] at h2
  exact h (Option.some.inj h2)

/-! ### optparse -/

theorem optLoop_arg {opts : List Opt} {n : Nat} {f : Found} {v : PyStr} {rest : List PyStr} (h : PlainWord v) :
    optLoop opts (n + 1) f (v :: rest) = optLoop opts n { f with args := f.args ++ [v] } rest := by
  rcases h with rfl | h
  · rfl
  · cases v with
    | nil => rfl
    | cons c cs =>
      simp only [List.head?_cons, ne_eq, Option.some.injEq] at h
      simp only [optLoop]
      split
      · next e => simp only [List.cons.injEq] at e; exact absurd e.1 h
      · next e => simp only [List.cons.injEq] at e; exact absurd e.1 h
      · next e => simp only [List.cons.injEq] at e; exact absurd e.1 h
      · rfl

theorem optLoop_short {opts : List Opt} {n : Nat} {f : Found} {c : Nat} {cs : List Nat} {rest : List PyStr} (h : c ≠ 45) :
    optLoop opts (n + 1) f ((45 :: c :: cs) :: rest) =
      match shortOpts opts f rest (c :: cs) with
      | .go (f, rargs) => optLoop opts n f rargs
      | .stop p => .stop p := by
  simp only [optLoop]
  split
  · next e => simp only [List.cons.injEq, true_and] at e; exact absurd e.1 h
  · next e => simp only [List.cons.injEq, true_and] at e; exact absurd e.1 h
  · next e => simp only [List.cons.injEq, true_and] at e; obtain ⟨rfl, rfl⟩ := e; cases shortOpts opts f rest (c :: cs) <;> rfl
  · next h1 => exact absurd rfl (h1 c cs)

theorem optLoop_long {opts : List Opt} {n : Nat} {f : Found} {text : PyStr} {rest : List PyStr} (h : text ≠ []) :
    optLoop opts (n + 1) f ((45 :: 45 :: text) :: rest) =
      match longOpt opts f rest text with
      | .go (f, rargs) => optLoop opts n f rargs
      | .stop p => .stop p := by
  cases text with
  | nil => exact absurd rfl h
  | cons c cs => simp only [optLoop]; cases longOpt opts f rest (c :: cs) <;> rfl

/-- The pieces are read one after another. -/
theorem optLoop_pieces {opts : List Opt} (hd : DistinctOpts opts) {rest : List PyStr} : ∀ {ps : List CliPiece}, (∀ p ∈ ps, p.Sound opts) → ∀ {N : Nat} {f : Found},
    (ps.flatMap CliPiece.written ++ rest).length ≤ N → ∃ N', rest.length ≤ N' ∧
      optLoop opts N f (ps.flatMap CliPiece.written ++ rest) =
        optLoop opts N' ⟨f.options ++ ps.filterMap CliPiece.option, f.args ++ ps.filterMap CliPiece.arg⟩ rest
  | [], _, N, f, hN => ⟨N, by simpa using hN, by simp⟩
  | p :: ps, hp, N, f, hN => by
    have hs := hp p (by simp)
    have ih := fun {N f} => optLoop_pieces (rest := rest) hd (ps := ps) (fun q hq => hp q (by simp [hq])) (N := N) (f := f)
    generalize hr : ps.flatMap CliPiece.written ++ rest = more at ih
    have e : (p :: ps).flatMap CliPiece.written ++ rest = p.written ++ more := by simp [← hr]
    rw [e] at hN ⊢
    cases p with
    | value o v =>
      obtain ⟨h1, h2, -⟩ := hs
      obtain ⟨n, rfl⟩ : ∃ n, N = n + 1 := ⟨N - 1, by simp [CliPiece.written] at hN; omega⟩
      obtain ⟨N', h3, h4⟩ := ih (N := n) (f := { f with options := f.options ++ [(o.long, some v)] }) (by simp [CliPiece.written] at hN ⊢; omega)
      refine ⟨N', h3, ?_⟩
      simp only [CliPiece.written, List.cons_append, List.nil_append]
      rw [optLoop_short (hd.dash o h1)]
      simp only [shortOpts, findShort_mem hd h1, h2, if_true, ne_eq, not_true_eq_false, if_false]
      rw [h4]
      simp [CliPiece.option, CliPiece.arg, List.filterMap_cons]
    | joined o v =>
      obtain ⟨h1, h2, h5, -⟩ := hs
      obtain ⟨n, rfl⟩ : ∃ n, N = n + 1 := ⟨N - 1, by simp [CliPiece.written] at hN; omega⟩
      obtain ⟨N', h3, h4⟩ := ih (N := n) (f := { f with options := f.options ++ [(o.long, some v)] }) (by simp [CliPiece.written] at hN ⊢; omega)
      refine ⟨N', h3, ?_⟩
      simp only [CliPiece.written, List.cons_append, List.nil_append]
      rw [optLoop_short (hd.dash o h1)]
      simp only [shortOpts, findShort_mem hd h1, h2, if_true, ne_eq, h5, not_false_eq_true]
      rw [h4]
      simp [CliPiece.option, CliPiece.arg, List.filterMap_cons]
    | long o name v =>
      obtain ⟨h1, h2, -⟩ := hs
      obtain ⟨n, rfl⟩ : ∃ n, N = n + 1 := ⟨N - 1, by simp [CliPiece.written] at hN; omega⟩
      obtain ⟨N', h3, h4⟩ := ih (N := n) (f := { f with options := f.options ++ [(o.long, some v)] }) (by simp [CliPiece.written] at hN ⊢; omega)
      refine ⟨N', h3, ?_⟩
      simp only [CliPiece.written, List.cons_append, List.nil_append]
      rw [optLoop_long h1.2.2.1]
      simp only [longOpt, splitEquals_none h1.2.1, longMatches_stands hd h1, h2, if_true]
      rw [h4]
      simp [CliPiece.option, CliPiece.arg, List.filterMap_cons]
    | equals o name v =>
      obtain ⟨h1, h2⟩ := hs
      obtain ⟨n, rfl⟩ : ∃ n, N = n + 1 := ⟨N - 1, by simp [CliPiece.written] at hN; omega⟩
      obtain ⟨N', h3, h4⟩ := ih (N := n) (f := { f with options := f.options ++ [(o.long, some v)] }) (by simp [CliPiece.written] at hN ⊢; omega)
      refine ⟨N', h3, ?_⟩
      simp only [CliPiece.written, List.cons_append, List.nil_append]
      rw [optLoop_long (by simp)]
      simp only [longOpt, splitEquals_eq v h1.2.1, longMatches_stands hd h1, h2, if_true]
      rw [h4]
      simp [CliPiece.option, CliPiece.arg, List.filterMap_cons]
    | flag o =>
      obtain ⟨h1, h2, h5⟩ := hs
      obtain ⟨n, rfl⟩ : ∃ n, N = n + 1 := ⟨N - 1, by simp [CliPiece.written] at hN; omega⟩
      obtain ⟨N', h3, h4⟩ := ih (N := n) (f := { f with options := f.options ++ [(o.long, none)] }) (by simp [CliPiece.written] at hN ⊢; omega)
      refine ⟨N', h3, ?_⟩
      simp only [CliPiece.written, List.cons_append, List.nil_append]
      rw [optLoop_short (hd.dash o h1)]
      simp only [shortOpts, findShort_mem hd h1, h2, Bool.false_eq_true, h5, if_false]
      rw [h4]
      simp [CliPiece.option, CliPiece.arg, List.filterMap_cons]
    | longFlag o name =>
      obtain ⟨h1, h2, h5⟩ := hs
      obtain ⟨n, rfl⟩ : ∃ n, N = n + 1 := ⟨N - 1, by simp [CliPiece.written] at hN; omega⟩
      obtain ⟨N', h3, h4⟩ := ih (N := n) (f := { f with options := f.options ++ [(o.long, none)] }) (by simp [CliPiece.written] at hN ⊢; omega)
      refine ⟨N', h3, ?_⟩
      simp only [CliPiece.written, List.cons_append, List.nil_append]
      rw [optLoop_long h1.2.2.1]
      simp only [longOpt, splitEquals_none h1.2.1, longMatches_stands hd h1, h2, Bool.false_eq_true, h5, if_false, Option.isSome_none]
      rw [h4]
      simp [CliPiece.option, CliPiece.arg, List.filterMap_cons]
    | argument v =>
      obtain ⟨n, rfl⟩ : ∃ n, N = n + 1 := ⟨N - 1, by simp [CliPiece.written] at hN; omega⟩
      obtain ⟨N', h3, h4⟩ := ih (N := n) (f := { f with args := f.args ++ [v] }) (by simp [CliPiece.written] at hN ⊢; omega)
      refine ⟨N', h3, ?_⟩
      simp only [CliPiece.written, List.cons_append, List.nil_append]
      rw [optLoop_arg hs, h4]
      simp [CliPiece.option, CliPiece.arg, List.filterMap_cons]

/-! ### argparse -/

theorem classify_plainWord {opts : List Opt} {v : PyStr} (h : PlainWord v) : classifyWord opts v = some (.arg v) ∧ v ≠ [45, 45] := by
  rcases h with rfl | h
  · exact ⟨rfl, by decide⟩
  · cases v with
    | nil => exact ⟨rfl, by decide⟩
    | cons c cs =>
      simp only [List.head?_cons, ne_eq, Option.some.injEq] at h
      refine ⟨?_, by simp [h]⟩
      unfold classifyWord
      split
      · next e => simp only [List.cons.injEq] at e; exact absurd e.1 h
      · next e => simp only [List.cons.injEq] at e; exact absurd e.1 h
      · rfl

/-- What the words of a piece are taken for. -/
def CliPiece.words : CliPiece → List Word
  | .value o v => [.opt (some o) false none, .arg v]
  | .joined o v => [.opt (some o) false (some v)]
  | .long o _ v => [.opt (some o) true none, .arg v]
  | .equals o _ v => [.opt (some o) true (some v)]
  | .flag o => [.opt (some o) false none]
  | .longFlag o _ => [.opt (some o) true none]
  | .argument v => [.arg v]

theorem classifyWords_cons {opts : List Opt} {v : PyStr} {vs : List PyStr} (h : v ≠ [45, 45]) :
    classifyWords opts (v :: vs) = (classifyWord opts v).bind fun w => (classifyWords opts vs).map (w :: ·) := by
  rw [classifyWords, if_neg h]
  cases classifyWord opts v <;> cases classifyWords opts vs <;> rfl

theorem classify_short {opts : List Opt} {c : Nat} {cs : List Nat} (h : c ≠ 45) : classifyWord opts (45 :: c :: cs) =
    match findShort opts c, cs with
    | some o, [] => some (.opt (some o) false none)
    | some o, 61 :: v => some (.opt (some o) false (some v))
    | some o, v => some (.opt (some o) false (some v))
    | none, _ => some (unknownWord (45 :: c :: cs)) := by
  unfold classifyWord
  split
  · next e => simp only [List.cons.injEq, true_and] at e; exact absurd e.1 h
  · next e =>
    simp only [List.cons.injEq, true_and] at e
    obtain ⟨rfl, rfl⟩ := e
    cases findShort opts c with
    | none => rfl
    | some o => rcases cs with _ | ⟨d, cs⟩ <;> rfl
  · next h1 h2 => exact absurd rfl (h2 c cs)

theorem classify_pieces {opts : List Opt} (hd : DistinctOpts opts) {rest : List PyStr} {ws : List Word} (hr : classifyWords opts rest = some ws) :
    ∀ {ps : List CliPiece}, (∀ p ∈ ps, p.Sound opts) → classifyWords opts (ps.flatMap CliPiece.written ++ rest) = some (ps.flatMap CliPiece.words ++ ws)
  | [], _ => by simpa using hr
  | p :: ps, hp => by
    have hs := hp p (by simp)
    have ih := classify_pieces hd hr (ps := ps) (fun q hq => hp q (by simp [hq]))
    rw [List.flatMap_cons, List.flatMap_cons, List.append_assoc, List.append_assoc]
    generalize ps.flatMap CliPiece.written ++ rest = more at ih ⊢
    cases p with
    | value o v =>
      obtain ⟨h1, h2, h3⟩ := hs
      have hdash := hd.dash o h1
      simp only [CliPiece.written, CliPiece.words, List.cons_append, List.nil_append]
      rw [classifyWords_cons (by simp [hdash]), classifyWords_cons (classify_plainWord (opts := opts) h3).2, classify_short hdash, findShort_mem hd h1, (classify_plainWord h3).1, ih]
      rfl
    | joined o v =>
      obtain ⟨h1, h2, h3, h4⟩ := hs
      have hdash := hd.dash o h1
      simp only [CliPiece.written, CliPiece.words, List.cons_append, List.nil_append]
      rw [classifyWords_cons (by simp [hdash]), classify_short hdash, findShort_mem hd h1, ih]
      rcases v with _ | ⟨d, v⟩
      · exact absurd rfl h3
      · simp only [List.head?_cons, ne_eq, Option.some.injEq] at h4
        split
        · next e => simp at e
        · next e => simp only [List.cons.injEq] at e; exact absurd e.1 h4
        · next e _ _ => cases e; rfl
        · next e => simp at e
    | long o name v =>
      obtain ⟨h1, h2, h3⟩ := hs
      simp only [CliPiece.written, CliPiece.words, List.cons_append, List.nil_append]
      rw [classifyWords_cons (by simp [h1.2.2.1]), classifyWords_cons (classify_plainWord (opts := opts) h3).2, (classify_plainWord h3).1, ih]
      simp only [classifyWord, splitEquals_none h1.2.1, longMatches_stands hd h1]
      rfl
    | equals o name v =>
      obtain ⟨h1, h2⟩ := hs
      simp only [CliPiece.written, CliPiece.words, List.cons_append, List.nil_append]
      rw [classifyWords_cons (by simp), ih]
      simp only [classifyWord, splitEquals_eq v h1.2.1, longMatches_stands hd h1]
      rfl
    | flag o =>
      obtain ⟨h1, h2, h3⟩ := hs
      have hdash := hd.dash o h1
      simp only [CliPiece.written, CliPiece.words, List.cons_append, List.nil_append]
      rw [classifyWords_cons (by simp [hdash]), classify_short hdash, findShort_mem hd h1, ih]
      rfl
    | longFlag o name =>
      obtain ⟨h1, h2, h3⟩ := hs
      simp only [CliPiece.written, CliPiece.words, List.cons_append, List.nil_append]
      rw [classifyWords_cons (by simp [h1.2.2.1]), ih]
      simp only [classifyWord, splitEquals_none h1.2.1, longMatches_stands hd h1]
      rfl
    | argument v =>
      simp only [CliPiece.written, CliPiece.words, List.cons_append, List.nil_append]
      rw [classifyWords_cons (classify_plainWord (opts := opts) hs).2, (classify_plainWord hs).1, ih]
      rfl

/-- What is known after the arguments `as`, when `as₀` was the argument before. -/
def hasTaken (options : List (PyStr × Option PyStr)) (args : List PyStr) (extras : Bool) (t : TakenArgs) : Prop :=
  t.options = options ∧ t.argument = args.head? ∧ t.extras = (extras || decide (1 < args.length))

theorem acted_value (t : TakenArgs) (o : Opt) (v : PyStr) : acted t [(o.long, some v)] = .go { t with options := t.options ++ [(o.long, some v)], near := false } := by
  rw [acted, if_neg (by simp)]

theorem acted_flag {opts : List Opt} (hd : DistinctOpts opts) (t : TakenArgs) {o : Opt} (h1 : o ∈ opts) (h2 : o ≠ helpOpt) :
    acted t [(o.long, none)] = .go { t with options := t.options ++ [(o.long, none)], near := false } := by
  rw [acted, if_neg]
  simp only [List.mem_singleton, Prod.mk.injEq, and_true]
  exact fun h => name_help hd h1 h2 h.symm

theorem argLoop_pieces {opts : List Opt} (hd : DistinctOpts opts) {rest : List Word} {x : Bool} : ∀ {ps : List CliPiece}, (∀ p ∈ ps, p.Sound opts) →
    ∀ {N : Nat} {t : TakenArgs} {os : List (PyStr × Option PyStr)} {as : List PyStr}, hasTaken os as x t →
    (ps.flatMap CliPiece.words ++ rest).length ≤ N → ∃ N' t', rest.length ≤ N' ∧
      hasTaken (os ++ ps.filterMap CliPiece.option) (as ++ ps.filterMap CliPiece.arg) x t' ∧
      argLoop opts N t (ps.flatMap CliPiece.words ++ rest) = argLoop opts N' t' rest
  | [], _, N, t, os, as, ht, hN => ⟨N, t, by simpa using hN, by simpa using ht, by simp⟩
  | p :: ps, hp, N, t, os, as, ht, hN => by
    have hs := hp p (by simp)
    have ih := fun {N t os as} => argLoop_pieces (rest := rest) (x := x) hd (ps := ps) (fun q hq => hp q (by simp [hq])) (N := N) (t := t) (os := os) (as := as)
    obtain ⟨ho, ha, hx⟩ := ht
    generalize hr : ps.flatMap CliPiece.words ++ rest = more at ih
    have e : (p :: ps).flatMap CliPiece.words ++ rest = p.words ++ more := by simp [← hr]
    rw [e] at hN ⊢
    obtain ⟨n, rfl⟩ : ∃ n, N = n + 1 := ⟨N - 1, by cases p <;> simp [CliPiece.words] at hN <;> omega⟩
    have hlen : more.length ≤ n := by cases p <;> simp [CliPiece.words] at hN <;> omega
    have given (o : Opt) (v : PyStr) : ∃ N' t', rest.length ≤ N' ∧
        hasTaken (os ++ (o.long, some v) :: ps.filterMap CliPiece.option) (as ++ ps.filterMap CliPiece.arg) x t' ∧
        argLoop opts n { t with options := t.options ++ [(o.long, some v)], near := false } more = argLoop opts N' t' rest := by
      obtain ⟨N', t', h3, h4, h5⟩ := ih (N := n) (t := { t with options := t.options ++ [(o.long, some v)], near := false })
        (os := os ++ [(o.long, some v)]) (as := as) ⟨by simp [ho], ha, hx⟩ hlen
      exact ⟨N', t', h3, by simpa using h4, h5⟩
    have flagged (o : Opt) : ∃ N' t', rest.length ≤ N' ∧
        hasTaken (os ++ (o.long, none) :: ps.filterMap CliPiece.option) (as ++ ps.filterMap CliPiece.arg) x t' ∧
        argLoop opts n { t with options := t.options ++ [(o.long, none)], near := false } more = argLoop opts N' t' rest := by
      obtain ⟨N', t', h3, h4, h5⟩ := ih (N := n) (t := { t with options := t.options ++ [(o.long, none)], near := false })
        (os := os ++ [(o.long, none)]) (as := as) ⟨by simp [ho], ha, hx⟩ hlen
      exact ⟨N', t', h3, by simpa using h4, h5⟩
    cases p with
    | value o v =>
      obtain ⟨N', t', h3, h4, h5⟩ := given o v
      refine ⟨N', t', h3, by simpa [CliPiece.option, CliPiece.arg, List.filterMap_cons] using h4, ?_⟩
      simp only [CliPiece.words, List.cons_append, List.nil_append, argLoop, hs.2.1, if_true, acted_value]
      exact h5
    | joined o v =>
      obtain ⟨N', t', h3, h4, h5⟩ := given o v
      refine ⟨N', t', h3, by simpa [CliPiece.option, CliPiece.arg, List.filterMap_cons] using h4, ?_⟩
      have hc : consumeGiven opts [] o v = .go ([(o.long, some v)], none) := by cases v <;> simp [consumeGiven, hs.2.1]
      simp only [CliPiece.words, List.cons_append, List.nil_append, argLoop, Bool.false_eq_true, false_and, if_false, hc, acted_value]
      exact h5
    | long o name v =>
      obtain ⟨N', t', h3, h4, h5⟩ := given o v
      refine ⟨N', t', h3, by simpa [CliPiece.option, CliPiece.arg, List.filterMap_cons] using h4, ?_⟩
      simp only [CliPiece.words, List.cons_append, List.nil_append, argLoop, hs.2.1, if_true, acted_value]
      exact h5
    | equals o name v =>
      obtain ⟨N', t', h3, h4, h5⟩ := given o v
      refine ⟨N', t', h3, by simpa [CliPiece.option, CliPiece.arg, List.filterMap_cons] using h4, ?_⟩
      have hc : consumeGiven opts [] o v = .go ([(o.long, some v)], none) := by cases v <;> simp [consumeGiven, hs.2]
      simp only [CliPiece.words, List.cons_append, List.nil_append, argLoop, hs.2, Bool.true_eq_false, and_false, if_false, hc, acted_value]
      exact h5
    | flag o =>
      obtain ⟨N', t', h3, h4, h5⟩ := flagged o
      refine ⟨N', t', h3, by simpa [CliPiece.option, CliPiece.arg, List.filterMap_cons] using h4, ?_⟩
      simp only [CliPiece.words, List.cons_append, List.nil_append, argLoop, hs.2.1, Bool.false_eq_true, if_false, acted_flag hd t hs.1 hs.2.2]
      exact h5
    | longFlag o name =>
      obtain ⟨N', t', h3, h4, h5⟩ := flagged o
      refine ⟨N', t', h3, by simpa [CliPiece.option, CliPiece.arg, List.filterMap_cons] using h4, ?_⟩
      simp only [CliPiece.words, List.cons_append, List.nil_append, argLoop, hs.2.1, Bool.false_eq_true, if_false, acted_flag hd t hs.1.1 hs.2.2]
      exact h5
    | argument v =>
      simp only [CliPiece.words, List.cons_append, List.nil_append]
      cases as with
      | nil =>
        simp only [List.head?_nil] at ha
        obtain ⟨N', t', h3, h4, h5⟩ := ih (N := n) (t := { t with argument := some v, near := true }) (os := os) (as := [v]) ⟨ho, rfl, by simpa using hx⟩ hlen
        refine ⟨N', t', h3, by simpa [CliPiece.option, CliPiece.arg, List.filterMap_cons] using h4, ?_⟩
        simp only [argLoop, ha]
        exact h5
      | cons a as =>
        simp only [List.head?_cons] at ha
        obtain ⟨N', t', h3, h4, h5⟩ := ih (N := n) (t := { t with extras := true, near := false }) (os := os) (as := a :: as ++ [v]) ⟨ho, by simpa using ha, by simp⟩ hlen
        refine ⟨N', t', h3, by simpa [CliPiece.option, CliPiece.arg, List.filterMap_cons] using h4, ?_⟩
        simp only [argLoop, ha] at h5 ⊢
        exact h5

end Gsm
