import Verif.Lemmas.CommandLine
/-! # C119: The command line of the tools says what they do -/
namespace Gsm

/-- The options of the three tools differ in letter and name. -/
theorem C119_distinct : DistinctOpts sendsmsOpts ∧ DistinctOpts identifyOpts ∧ DistinctOpts gsmtermOpts :=
  ⟨⟨by decide, by decide, by decide, by decide⟩, ⟨by decide, by decide, by decide, by decide⟩, ⟨by decide, by decide, by decide, by decide⟩⟩

/-- However the options are written and wherever the argument stands, both parsers find what is meant. -/
theorem C119_parse {opts : List Opt} (hd : DistinctOpts opts) {ps : List CliPiece} (hp : ∀ p ∈ ps, p.Sound opts) :
    parsePy26 opts (ps.flatMap CliPiece.written) = meant ps ∧ parsePy27 opts (ps.flatMap CliPiece.written) = meant ps := by
  constructor
  · obtain ⟨N', h1, h2⟩ := optLoop_pieces hd (rest := []) hp (N := (ps.flatMap CliPiece.written).length) (f := {}) (by simp)
    simp only [List.append_nil] at h2
    have h3 : ∀ f, optLoop opts N' f [] = .go f := by intro f; cases N' <;> rfl
    rw [h3] at h2
    simp only [parsePy26, h2, List.nil_append, meant]
    rcases ps.filterMap CliPiece.arg with _ | ⟨a, _ | ⟨b, as⟩⟩ <;> rfl
  · have hc := classify_pieces hd (rest := []) (ws := []) rfl hp
    simp only [List.append_nil] at hc
    obtain ⟨N', t', -, ⟨h1, h2, h3⟩, h4⟩ := argLoop_pieces hd (rest := []) (x := false) hp (N := (ps.flatMap CliPiece.words).length) (t := {}) (os := []) (as := [])
      ⟨rfl, rfl, rfl⟩ (by simp)
    simp only [List.append_nil, List.nil_append] at h1 h2 h3 h4
    have h5 : argLoop opts N' t' [] = .go t' := by cases N' <;> rfl
    rw [h5] at h4
    simp only [parsePy27, hc, h4, meant, h1, h2, h3]
    rcases ps.filterMap CliPiece.arg with _ | ⟨a, _ | ⟨b, as⟩⟩ <;> simp

/-- A word that belongs to no option is refused by both, wherever it stands. -/
theorem C119_foreign {opts : List Opt} (hd : DistinctOpts opts) {ps qs : List CliPiece} (hp : ∀ p ∈ ps, p.Sound opts) (hq : ∀ p ∈ qs, p.Sound opts)
    {w : PyStr} (hw : Foreign opts w) :
    parsePy26 opts (ps.flatMap CliPiece.written ++ w :: qs.flatMap CliPiece.written) = .usage ∧
    parsePy27 opts (ps.flatMap CliPiece.written ++ w :: qs.flatMap CliPiece.written) = .usage := by
  constructor
  · obtain ⟨N', h1, h2⟩ := optLoop_pieces hd (rest := w :: qs.flatMap CliPiece.written) hp (N := (ps.flatMap CliPiece.written ++ w :: qs.flatMap CliPiece.written).length)
      (f := {}) (Nat.le_refl _)
    obtain ⟨n, rfl⟩ : ∃ n, N' = n + 1 := ⟨N' - 1, by simp at h1; omega⟩
    have h3 : ∀ f, optLoop opts (n + 1) f (w :: qs.flatMap CliPiece.written) = .stop .usage := by
      intro f
      rcases hw with ⟨c, cs, rfl, hc, ho, -⟩ | ⟨name, rfl, hn, he, -, ho⟩
      · rw [optLoop_short hc]
        simp only [shortOpts, findShort_none ho]
      · rw [optLoop_long hn]
        simp only [longOpt, splitEquals_none he, longMatches_none ho]
    rw [h3] at h2
    simp only [parsePy26, h2]
  · have hw1 : classifyWord opts w = some (.opt none false none) ∧ w ≠ [45, 45] := by
      rcases hw with ⟨c, cs, rfl, hc, ho, h1, h2⟩ | ⟨name, rfl, hn, he, h1, ho⟩
      · refine ⟨?_, by simp [hc]⟩
        rw [classify_short hc, findShort_none ho]
        simp only [unknownWord, List.tail_cons, h1, Bool.false_eq_true, if_false]
        rw [if_neg]
        intro h; rcases List.mem_cons.1 h with h | h
        · exact absurd h (by decide)
        · exact h2 h
      · refine ⟨?_, by simp [hn]⟩
        simp only [classifyWord, splitEquals_none he, longMatches_none ho, unknownWord, List.tail_cons]
        have hneg : negativeNumber (45 :: name) = false := by
          have h0 : ∀ cs : PyStr, negativeNumber (45 :: cs) = false := by
            intro cs
            unfold negativeNumber
            rcases List.eq_nil_or_concat cs with rfl | ⟨l, b, rfl⟩
            · decide
            · by_cases hb : b = 10
              · subst hb
                have e1 : (45 :: (l ++ [10])).getLast? = some 10 := by rw [← List.cons_append, List.getLast?_concat]
                have e2 : (45 :: (l ++ [10])).dropLast = 45 :: l := by rw [← List.cons_append, List.dropLast_concat]
                simp only [List.concat_eq_append, e1, e2, if_true]
                simp [List.dropWhile_cons]
              · have e1 : (45 :: (l ++ [b])).getLast? = some b := by rw [← List.cons_append, List.getLast?_concat]
                simp only [List.concat_eq_append, e1, Option.some.injEq, hb, if_false]
                simp [List.dropWhile_cons]
          exact h0 name
        simp only [hneg, Bool.false_eq_true, if_false]
        rw [if_neg]
        simp [h1]
    have hq1 := classify_pieces hd (rest := []) (ws := []) rfl hq
    simp only [List.append_nil] at hq1
    have hc := classify_pieces hd (rest := w :: qs.flatMap CliPiece.written) (ws := .opt none false none :: qs.flatMap CliPiece.words)
      (by rw [classifyWords_cons hw1.2, hw1.1, hq1]; rfl) hp
    obtain ⟨N', t', hN, -, h4⟩ := argLoop_pieces hd (rest := .opt none false none :: qs.flatMap CliPiece.words) (x := false) hp
      (N := (ps.flatMap CliPiece.words ++ .opt none false none :: qs.flatMap CliPiece.words).length) (t := {}) (os := []) (as := []) ⟨rfl, rfl, rfl⟩ (Nat.le_refl _)
    obtain ⟨n, rfl⟩ : ∃ n, N' = n + 1 := ⟨N' - 1, by simp at hN; omega⟩
    have h6 : ∃ t'', argLoop opts n { t' with extras := true, near := false } (qs.flatMap CliPiece.words) = .go t'' ∧ t''.extras = true := by
      obtain ⟨N2, t2, -, ⟨-, -, h3⟩, h5⟩ := argLoop_pieces hd (rest := []) (x := true) hq (N := n) (t := { t' with extras := true, near := false })
        (os := t'.options) (as := t'.argument.toList) ⟨rfl, by cases t'.argument <;> rfl, by simp⟩ (by simp at hN ⊢; omega)
      simp only [List.append_nil] at h5
      exact ⟨t2, by rw [h5]; cases N2 <;> rfl, by simpa using h3⟩
    obtain ⟨t'', h7, h8⟩ := h6
    simp only [parsePy27, hc, h4, argLoop, h7, h8, if_true]
    cases t''.argument <;> rfl

/-- When no option is given twice, the order of the pieces makes no difference to the values of the options and the argument. -/
theorem C119_order {ps qs : List CliPiece} (h : ps.Perm qs) (hn : ((ps.filterMap CliPiece.option).map (·.1)).Nodup) (name : PyStr) :
    optValue name (ps.filterMap CliPiece.option) = optValue name (qs.filterMap CliPiece.option) ∧
    optFlag name (ps.filterMap CliPiece.option) = optFlag name (qs.filterMap CliPiece.option) ∧
    (ps.filterMap CliPiece.arg).length = (qs.filterMap CliPiece.arg).length ∧ ∀ a, ps.filterMap CliPiece.arg = [a] → qs.filterMap CliPiece.arg = [a] := by
  have h1 := h.filterMap CliPiece.option
  have h2 := h.filterMap CliPiece.arg
  have look : ∀ {l l' : List (PyStr × Option PyStr)}, l.Perm l' → (l.map (·.1)).Nodup → l.lookup name = l'.lookup name := by
    intro l l' hl hn
    induction hl with
    | nil => rfl
    | cons x _ ih =>
      obtain ⟨k, v⟩ := x
      simp only [List.map_cons, List.nodup_cons] at hn
      simp only [List.lookup_cons, ih hn.2]
    | swap x y l =>
      obtain ⟨k, v⟩ := x
      obtain ⟨k', v'⟩ := y
      simp only [List.map_cons, List.nodup_cons, List.mem_cons, not_or] at hn
      simp only [List.lookup_cons]
      cases e1 : name == k <;> cases e2 : name == k' <;> simp only
      exact absurd ((beq_iff_eq.1 e2).symm.trans (beq_iff_eq.1 e1)) hn.1.1
    | trans h1 _ ih1 ih2 => rw [ih1 hn, ih2 ((h1.map _).nodup_iff.1 hn)]
  refine ⟨?_, by simp only [optFlag, look h1 hn], h2.length_eq, fun a ha => by rw [ha] at h2; exact (List.singleton_perm.1 h2).symm⟩
  unfold optValue
  rw [look (l := (ps.filterMap CliPiece.option).reverse) (l' := (qs.filterMap CliPiece.option).reverse)]
  · exact (List.reverse_perm _).trans (h1.trans (List.reverse_perm _).symm)
  · rw [List.map_reverse]; exact (List.reverse_perm _).nodup_iff.2 hn

/-- When an option is given more than once, the last value counts; other options do not matter. -/
theorem C119_last (ps : List CliPiece) {p : CliPiece} {name : PyStr} {v : Option PyStr} (h : p.option = some (name, v)) :
    optValue name ((ps ++ [p]).filterMap CliPiece.option) = v ∧ optFlag name ((ps ++ [p]).filterMap CliPiece.option) = true ∧
    ∀ other, other ≠ name → optValue other ((ps ++ [p]).filterMap CliPiece.option) = optValue other (ps.filterMap CliPiece.option) ∧
      optFlag other ((ps ++ [p]).filterMap CliPiece.option) = optFlag other (ps.filterMap CliPiece.option) := by
  have e : (ps ++ [p]).filterMap CliPiece.option = ps.filterMap CliPiece.option ++ [(name, v)] := by simp [List.filterMap_append, h]
  rw [e]
  simp only [optValue, optFlag, List.reverse_append, List.reverse_cons, List.reverse_nil, List.nil_append, List.cons_append, List.lookup_cons, beq_self_eq_true,
    List.lookup_append, Option.bind_some, true_and]
  refine ⟨by cases List.lookup name (ps.filterMap CliPiece.option) <;> simp, fun other ho => ?_⟩
  have : (other == name) = false := by simpa using ho
  simp [this]

/-- sendsms.py does with its command line, on either version of Python, what `sendsms` does with the arguments that are meant. -/
theorem C119_sendsms [PyUnicode] {ps : List CliPiece} (hp : ∀ p ∈ ps, p.Sound sendsmsOpts) {number : PyStr} (ha : ps.filterMap CliPiece.arg = [number])
    (env : Env) (a : SendArgs) (s : St) (parse : List Opt → List PyStr → Parsed) (h : parse = parsePy26 ∨ parse = parsePy27) :
    sendsmsMain parse (ps.flatMap CliPiece.written) env a s =
      sendsms env { a with
        port := optValue py!"port" (ps.filterMap CliPiece.option), pin := optValue py!"pin" (ps.filterMap CliPiece.option)
        deliver := optFlag py!"deliver" (ps.filterMap CliPiece.option), destination := number } s := by
  have h1 := C119_parse C119_distinct.1 hp
  have h2 : meant ps = .settings (ps.filterMap CliPiece.option) number := by simp only [meant, ha]
  rcases h with rfl | rfl
  · simp only [sendsmsMain, h1.1, h2]
  · simp only [sendsmsMain, h1.2, h2]

/-- The same for identify-modem.py. -/
theorem C119_identify {ps : List CliPiece} (hp : ∀ p ∈ ps, p.Sound identifyOpts) {port : PyStr} (ha : ps.filterMap CliPiece.arg = [port])
    (env : Env) (s : St) (parse : List Opt → List PyStr → Parsed) (h : parse = parsePy26 ∨ parse = parsePy27) :
    identifyMain parse (ps.flatMap CliPiece.written) env s =
      identify env (optValue py!"pin" (ps.filterMap CliPiece.option)) (optFlag py!"debug" (ps.filterMap CliPiece.option)) s := by
  have h1 := C119_parse C119_distinct.2.1 hp
  have h2 : meant ps = .settings (ps.filterMap CliPiece.option) port := by simp only [meant, ha]
  rcases h with rfl | rfl
  · simp only [identifyMain, h1.1, h2]
  · simp only [identifyMain, h1.2, h2]

/-- A wrong command line never gets as far as the modem: the state is that of before. -/
theorem C119_refused [PyUnicode] {argv : List PyStr} (env : Env) (a : SendArgs) (s : St) (parse : List Opt → List PyStr → Parsed)
    (h : ∀ os arg, parse sendsmsOpts argv ≠ .settings os arg) : (sendsmsMain parse argv env a s).st = s ∧ (sendsmsMain parse argv env a s).exit ≠ .status 1 := by
  unfold sendsmsMain
  split
  · next e => exact absurd e (h _ _)
  all_goals exact ⟨rfl, by simp⟩

/-- It is not so that every command line means the same on both versions: the value after `-b=` has the `=` in it on Python 2.6, a value that
begins with a dash is accepted there only, and `-d=` makes Python 2.7 fail with IndexError. -/
theorem C119_same_violated :
    parsePy26 sendsmsOpts [py!"-b=9600", py!"123"] = .settings [(py!"baud", some py!"=9600")] py!"123" ∧
    parsePy27 sendsmsOpts [py!"-b=9600", py!"123"] = .settings [(py!"baud", some py!"9600")] py!"123" ∧
    parsePy26 sendsmsOpts [py!"-i", py!"-tty", py!"123"] = .settings [(py!"port", some py!"-tty")] py!"123" ∧
    parsePy27 sendsmsOpts [py!"-i", py!"-tty", py!"123"] = .usage ∧
    parsePy26 sendsmsOpts [py!"-d=", py!"123"] = .usage ∧ parsePy27 sendsmsOpts [py!"-d=", py!"123"] = .crashed := by
  decide +kernel

/-- The PIN is not kept to the modem: identify-modem.py shows it on the screen before anything else. -/
theorem C119_pin_shown_violated {ps : List CliPiece} {pin port : PyStr} (h : optValue py!"pin" (ps.filterMap CliPiece.option) = some pin) :
    py!"pin='" ++ pin ++ py!"'" <:+: argsLine (ps.filterMap CliPiece.option) port := by
  unfold argsLine
  simp only [h]
  generalize (if optFlag py!"debug" (ps.filterMap CliPiece.option) = true then py!"True" else py!"False") = y
  cases optValue py!"baud" (ps.filterMap CliPiece.option) with
  | none => exact ⟨py!"args: Namespace(baud=" ++ py!"115200" ++ py!", debug=" ++ y ++ py!", ", py!", port=" ++ (py!"'" ++ port ++ py!"'") ++ py!")", by simp⟩
  | some b => exact ⟨py!"args: Namespace(baud=" ++ (py!"'" ++ b ++ py!"'") ++ py!", debug=" ++ y ++ py!", ", py!", port=" ++ (py!"'" ++ port ++ py!"'") ++ py!")", by simp⟩

/-! ### Examples -/

/-- `sendsms.py -i /dev/ttyUSB0 +27820000000 --pin=1234 -d`. -/
def sendPieces : List CliPiece :=
  [.value ⟨105, py!"port", true⟩ py!"/dev/ttyUSB0", .argument py!"+27820000000", .equals ⟨112, py!"pin", true⟩ py!"pin" py!"1234", .flag ⟨100, py!"deliver", false⟩]

theorem sendPieces_sound : ∀ p ∈ sendPieces, p.Sound sendsmsOpts := by
  intro p hp
  simp only [sendPieces, List.mem_cons, List.not_mem_nil, or_false] at hp
  rcases hp with rfl | rfl | rfl | rfl
  · exact ⟨by decide, rfl, Or.inr (by decide)⟩
  · exact Or.inr (by decide)
  · exact ⟨⟨by decide, by decide, by decide, Or.inl rfl⟩, rfl⟩
  · exact ⟨by decide, rfl, by decide⟩

theorem C119_example :
    sendPieces.flatMap CliPiece.written = [py!"-i", py!"/dev/ttyUSB0", py!"+27820000000", py!"--pin=1234", py!"-d"] ∧
    parsePy26 sendsmsOpts (sendPieces.flatMap CliPiece.written) =
      .settings [(py!"port", some py!"/dev/ttyUSB0"), (py!"pin", some py!"1234"), (py!"deliver", none)] py!"+27820000000" ∧
    parsePy27 sendsmsOpts (sendPieces.flatMap CliPiece.written) =
      .settings [(py!"port", some py!"/dev/ttyUSB0"), (py!"pin", some py!"1234"), (py!"deliver", none)] py!"+27820000000" := by
  have h := C119_parse C119_distinct.1 sendPieces_sound
  exact ⟨by decide +kernel, h.1.trans (by decide +kernel), h.2.trans (by decide +kernel)⟩

/-- Beginnings of names: `--del` stands for `--deliver`, `--p` for nothing. -/
example : Stands sendsmsOpts py!"del" ⟨100, py!"deliver", false⟩ ∧ ¬ Stands sendsmsOpts py!"p" ⟨112, py!"pin", true⟩ := by
  refine ⟨⟨by decide, by decide, by decide, Or.inr (by decide +kernel)⟩, ?_⟩
  rintro ⟨-, -, -, h | h⟩
  · exact absurd h (by decide)
  · exact absurd ((h ⟨105, py!"port", true⟩ (by decide)).1 (by decide +kernel)) (by decide)

example : parsePy27 sendsmsOpts [py!"--p", py!"1", py!"123"] = .usage ∧ parsePy26 sendsmsOpts [py!"--p", py!"1", py!"123"] = .usage := by decide +kernel
example : parsePy27 sendsmsOpts [py!"--del", py!"123"] = .settings [(py!"deliver", none)] py!"123" := by decide +kernel
example : parsePy27 sendsmsOpts [py!"-di7", py!"123"] = parsePy26 sendsmsOpts [py!"-di7", py!"123"] := by decide +kernel
example : Foreign sendsmsOpts py!"-x" ∧ Foreign sendsmsOpts py!"--retry" :=
  ⟨Or.inl ⟨120, [], rfl, by decide, by decide, by decide +kernel, by decide⟩, Or.inr ⟨py!"retry", rfl, by decide, by decide, by decide, by decide +kernel⟩⟩
example : argsLine [(py!"pin", some py!"1234")] py!"/dev/ttyUSB0" = py!"args: Namespace(baud=115200, debug=False, pin='1234', port='/dev/ttyUSB0')" := by decide +kernel

end Gsm
