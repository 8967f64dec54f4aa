import Verif.Spec.Coverage
import Verif.Lemmas.RegexEval
import Verif.Lemmas.ModemTrans
import Verif.Props.Util
import Verif.Spec.ExampleModem
/-! # Waiting for network coverage -/
namespace Gsm
open M Spec

variable {env : Env}

theorem spaces_iff {b : PyStr} : Spaces b ↔ ∀ c ∈ b, isS c = true := by simp [Spaces, isS]

theorem creg_iff {line : PyStr} {g : List PyStr} : rxGroups cregRegex line = some g ↔
    ∃ d n, g = [[d], [48 + n]] ∧ ∃ b t, line = py!"+CREG:" ++ b ++ [d] ++ py!"," ++ [48 + n] ++ t ∧ Spaces b ∧ 48 ≤ d ∧ d ≤ 57 ∧ n ≤ 9 ∧ (t = [] ∨ t = [10]) := by
  unfold rxGroups rxMatch? cregRegex rxGrp
  constructor
  · intro h
    rw [Option.map_eq_some_iff] at h
    obtain ⟨⟨g', r⟩, h, rfl⟩ := h
    simp only [List.append_assoc, List.cons_append, List.nil_append] at h
    obtain ⟨s1, rfl, h1⟩ := rxRun_lit_some h
    obtain ⟨b, s2, rfl, hb, _, _, h2⟩ := rxRun_rep_some h1
    rw [rxRun_op] at h2
    obtain ⟨d, s3, rfl, hd, h3⟩ := rxRun_ch_some h2
    rw [rxRun_cl] at h3
    obtain ⟨s4, rfl, h4⟩ := rxRun_lit_some h3
    rw [rxRun_op] at h4
    obtain ⟨e, s5, rfl, he, h5⟩ := rxRun_ch_some h4
    rw [rxRun_cl] at h5
    obtain ⟨hend, h6⟩ := rxRun_eol_some h5
    simp only [rxRun_nil, List.nil_append, Option.some.injEq, Prod.mk.injEq] at h6
    have he := isD_iff.1 he
    have hd := isD_iff.1 hd
    have e48 : 48 + (e - 48) = e := by omega
    refine ⟨d, e - 48, by rw [← h6.1, e48]; simp, b, s5, by rw [e48]; simp, spaces_iff.2 hb, hd.1, hd.2, by omega, hend⟩
  · rintro ⟨d, n, rfl, b, t, rfl, hb, hd1, hd2, hn, ht⟩
    have hdd : isD d = true := isD_iff.2 ⟨hd1, hd2⟩
    have hnn : isD (48 + n) = true := isD_iff.2 ⟨by omega, by omega⟩
    have key : rxRun (rxLit py!"+CREG:" ++ (rxStar isS :: .op :: .ch isD :: .cl :: (rxLit py!"," ++ (.op :: .ch isD :: .cl :: [.eol]))))
        (py!"+CREG:" ++ (b ++ (d :: (py!"," ++ ((48 + n) :: t))))) ⟨[], []⟩ = some ([[d], [48 + n]], t) := by
      refine rxRun_litE (rxRun_star (spaces_iff.1 hb) ?_ ?_)
      · intro c hc
        simp at hc
        subst hc
        simp [isS]; omega
      · rw [rxRun_op, rxRun_ch hdd, rxRun_cl]
        refine rxRun_litE ?_
        rw [rxRun_op, rxRun_ch hnn, rxRun_cl, rxRun_eol ht, rxRun_nil]
        simp
    simp only [List.append_assoc, List.cons_append, List.nil_append] at key ⊢
    rw [key]
    rfl

theorem status_none {line : PyStr} : rxGroups cregRegex line = none ↔ ∀ n, ¬ StatusLine line n := by
  constructor
  · rintro h n ⟨b, d, t, h1⟩
    rw [creg_iff.2 ⟨d, n, rfl, b, t, h1⟩] at h
    cases h
  · intro h
    cases hg : rxGroups cregRegex line with
    | none => rfl
    | some g =>
      obtain ⟨d, n, _, b, t, h1⟩ := creg_iff.1 hg
      exact absurd ⟨b, d, t, h1⟩ (h n)

/-- What a query of the registration finds. -/
theorem creg_answer (ls : List PyStr) : (TellsNothing ls ∧ lineMatching (rxGroups cregRegex) ls = none) ∨
    ∃ d n, Tells ls n ∧ lineMatching (rxGroups cregRegex) ls = some [[d], [48 + n]] ∧ pyInt [48 + n] = .ok (n : Int) := by
  induction ls with
  | nil => exact .inl ⟨by simp [TellsNothing], rfl⟩
  | cons l ls ih =>
    simp only [lineMatching]
    cases hg : rxGroups cregRegex l with
    | some g =>
      obtain ⟨d, n, rfl, b, t, h1⟩ := creg_iff.1 hg
      refine .inr ⟨d, n, ⟨[], l, ls, rfl, ⟨b, d, t, h1⟩, by simp⟩, rfl, ?_⟩
      have hD : Digits [48 + n] := ⟨by simp, by simp; omega⟩
      rw [pyInt_of_digits hD]
      simp [decVal]
    | none =>
      have hl := status_none.1 hg
      rcases ih with ⟨h1, h2⟩ | ⟨d, n, ⟨pre, x, post, rfl, h3, h4⟩, h5⟩
      · exact .inl ⟨by simpa [TellsNothing] using ⟨hl, h1⟩, h2⟩
      · exact .inr ⟨d, n, ⟨l :: pre, x, post, rfl, h3, by simpa using ⟨hl, h4⟩⟩, h5⟩

theorem tells_unique {ls : List PyStr} {n m : Nat} (h : Tells ls n) (h' : Tells ls m) : n = m := by
  obtain ⟨p, l, q, rfl, ⟨b, d, t, h1⟩, h2⟩ := h
  obtain ⟨p', l', q', he, ⟨b', d', t', h1'⟩, h2'⟩ := h'
  have g1 := creg_iff.2 ⟨d, n, rfl, b, t, h1⟩
  have g1' := creg_iff.2 ⟨d', m, rfl, b', t', h1'⟩
  have e1 : lineMatching (rxGroups cregRegex) (p ++ l :: q) = some [[d], [48 + n]] :=
    (C52_first_match _ _ _).2 ⟨p, l, q, rfl, g1, fun x hx => status_none.2 (h2 x hx)⟩
  have e2 : lineMatching (rxGroups cregRegex) (p ++ l :: q) = some [[d'], [48 + m]] :=
    (C52_first_match _ _ _).2 ⟨p', l', q', he, g1', fun x hx => status_none.2 (h2' x hx)⟩
  rw [e1] at e2
  simp at e2
  exact e2.2

theorem csq_iff {line : PyStr} {g : List PyStr} : rxGroups csqRegex line = some g ↔
    ∃ ds, g = [ds] ∧ Digits ds ∧ ∃ b t, line = py!"+CSQ:" ++ b ++ ds ++ py!"," ++ t ∧ Spaces b := by
  unfold rxGroups rxMatch? csqRegex rxGrp
  constructor
  · intro h
    rw [Option.map_eq_some_iff] at h
    obtain ⟨⟨g', r⟩, h, rfl⟩ := h
    simp only [List.append_assoc, List.cons_append, List.nil_append] at h
    obtain ⟨s1, rfl, h1⟩ := rxRun_lit_some h
    obtain ⟨b, s2, rfl, hb, _, _, h2⟩ := rxRun_rep_some h1
    rw [rxRun_op] at h2
    obtain ⟨ds, s3, rfl, hd, hl, _, h3⟩ := rxRun_rep_some h2
    rw [rxRun_cl] at h3
    rw [← List.append_nil (rxLit py!",")] at h3
    obtain ⟨s4, rfl, h4⟩ := rxRun_lit_some h3
    simp only [rxRun_nil, List.nil_append, Option.some.injEq, Prod.mk.injEq] at h4
    refine ⟨ds, by rw [← h4.1], ⟨?_, fun c hc => isD_iff.1 (hd c hc)⟩, b, s4, by simp, spaces_iff.2 hb⟩
    rintro rfl; simp at hl
  · rintro ⟨ds, rfl, hd, b, t, rfl, hb⟩
    have key : rxRun (rxLit py!"+CSQ:" ++ (rxStar isS :: .op :: rxPlus isD :: .cl :: (rxLit py!"," ++ [])))
        (py!"+CSQ:" ++ (b ++ (ds ++ (py!"," ++ t)))) ⟨[], []⟩ = some ([ds], t) := by
      refine rxRun_litE (rxRun_star (spaces_iff.1 hb) (head_digits hd fun c h1 h2 => ?_) (rxRun_op' (rxRun_plus hd.1 (digits_class hd) ?_ (rxRun_cl' (rxRun_litE ?_)))))
      · simp [isS]; omega
      · intro c hc
        simp at hc
        subst hc
        rfl
      · rw [rxRun_nil]
        simp
    simp only [List.append_assoc, List.cons_append, List.nil_append, List.append_nil] at key ⊢
    rw [key]
    rfl

theorem classify_not_invalid {line : PyStr} : classify line ≠ .failed .invalidState := by
  unfold classify
  intro h
  split at h
  · split at h
    · split at h
      · next e he => unfold pyInt at he; split at he <;> simp_all
      · split at h
        · cases h
        · split at h
          · simp only [cmeError] at h; split at h <;> try split at h
            all_goals try split at h
            all_goals simp at h
          · simp only [cmsError] at h; split at h <;> simp at h
    · simp at h
  · split at h <;> simp at h

theorem writeN_not_invalid {data term : PyStr} {pe : Bool} : ∀ (n : Nat) (s : St), (writeN n data pe term env s).1 ≠ .error .invalidState
  | 0, s => by simp [writeN, M.raise]
  | n + 1, s => by
    simp only [writeN]
    split
    · simp
    · split
      · simp
      · split
        · split
          · simp
          · next e he =>
            rintro h
            simp only [Except.error.injEq] at h
            subst h
            exact classify_not_invalid he
          · split
            · simp
            · next e s' he =>
              have := writeN_not_invalid (data := data) (term := term) (pe := pe) n { s with log := (data ++ term) :: s.log, writeWait := s.writeWait + 2 }
              rw [he] at this
              exact this
        · simp

theorem lastAnswer_lines {log ls : List PyStr} (h : env.reply log = .lines ls) : lastAnswer env log = ls := by simp [lastAnswer, h]

theorem accepted_of_trans {reply : List PyStr → Reply} {c : PyStr} {a b : List PyStr} {ok : Bool} (h : Transmission reply [c] a b ok) (hok : ok = true) :
    Accepted reply b ∧ a <:+ b := by
  cases h with
  | next _ _ ha ht => cases ht; exact ⟨ha, List.suffix_append _ _⟩
  | stop => cases hok

/-- One query of the signal strength. -/
theorem signal_trans (s : St) : ∃ ok s1, OnlyLog s s1 ∧ Transmission env.reply [csqCmd] s.log s1.log ok ∧
    ((ok = true ∧ ∃ n, Signal env.reply s1.log n ∧ signalStrength env s = (.ok (if n = 99 then -1 else (n : Int)), s1)) ∨
      ((ok = true → ∀ n, ¬ Signal env.reply s1.log n) ∧ ∃ e, signalStrength env s = (.error e, s1) ∧ e ≠ .invalidState)) := by
  obtain ⟨ok, s1, h1, h2, h3⟩ := write_trans (env := env) py!"AT+CSQ" [13] s
  refine ⟨ok, s1, h1, h2, ?_⟩
  unfold signalStrength
  simp only [run_bind]
  rcases h3 with ⟨rfl, h3⟩ | ⟨rfl, e, h3⟩
  · rw [h3]
    have hacc : ∃ ls, env.reply s1.log = .lines ls ∧ ls ≠ [] := by
      obtain ⟨ls, line, h, hl, _⟩ := (accepted_of_trans h2 rfl).1
      exact ⟨ls, h, by rintro rfl; simp at hl⟩
    obtain ⟨ls, hr, hne⟩ := hacc
    obtain ⟨l, ls, rfl⟩ := List.exists_cons_of_ne_nil hne
    rw [lastAnswer_lines hr]
    simp only [firstLine, run_ofExcept]
    cases hg : rxGroups csqRegex l with
    | none =>
      refine .inr ⟨fun _ n hn => ?_, _, rfl, by simp⟩
      obtain ⟨l', ls', hr', b, ds, t, hl', hb, hd, _⟩ := hn
      rw [hr] at hr'
      simp only [Reply.lines.injEq, List.cons.injEq] at hr'
      rw [← hr'.1] at hl'
      rw [csq_iff.2 ⟨ds, rfl, hd, b, t, hl', hb⟩] at hg
      cases hg
    | some g =>
      obtain ⟨ds, rfl, hd, b, t, hl, hb⟩ := csq_iff.1 hg
      refine .inl ⟨trivial, decVal ds, ⟨l, ls, hr, b, ds, t, hl, hb, hd, rfl⟩, ?_⟩
      simp only [run_bind, run_ofExcept, pyInt_of_digits hd, run_pure]
      by_cases h99 : decVal ds = 99
      · simp [h99]
      · have : ((decVal ds : Nat) : Int) ≠ 99 := by omega
        simp [h99, this]
  · rw [h3]
    refine .inr ⟨(nomatch ·), e, rfl, ?_⟩
    rintro rfl
    have := writeN_not_invalid (env := env) (data := py!"AT+CSQ") (pe := true) (term := [13]) env.depth s
    unfold write at h3
    rw [h3] at this
    exact this rfl

/-- The part of the wait after the registration. -/
theorem coverage_signal : ∀ (rounds : Nat) (s : St), ∃ o s1, OnlyLog s s1 ∧ (coverageLoop rounds false env s).2 = s1 ∧
    Outcome.Result o (coverageLoop rounds false env s).1 ∧
    ∃ j log, NoSignal env.reply j s.log log ∧
      ((o = .timedOut ∧ j = rounds ∧ s1.log = log) ∨
       (∃ n, o = .strength n ∧ j < rounds ∧ Transmission env.reply [csqCmd] log s1.log true ∧ Signal env.reply s1.log n ∧ 0 < n ∧ n ≠ 99) ∨
       (∃ ok, o = .failed ∧ j < rounds ∧ Transmission env.reply [csqCmd] log s1.log ok ∧ (ok = true → ∀ n, ¬ Signal env.reply s1.log n)))
  | 0, s => ⟨.timedOut, s, .refl s, rfl, rfl, 0, s.log, .none, .inl ⟨rfl, rfl, rfl⟩⟩
  | rounds + 1, s => by
    obtain ⟨ok, s1, h1, h2, h3⟩ := signal_trans (env := env) s
    simp only [coverageLoop, run_bind]
    rcases h3 with ⟨rfl, n, h3, h4⟩ | ⟨h3, e, h4, h5⟩
    · rw [h4]
      dsimp only
      by_cases hn : 0 < n ∧ n ≠ 99
      · have : (if n = 99 then -1 else (n : Int)) = n := if_neg hn.2
        rw [this, if_pos (by omega)]
        exact ⟨.strength n, s1, h1, rfl, rfl, 0, s.log, .none, .inr (.inl ⟨n, rfl, by omega, h2, h3, hn⟩)⟩
      · have h0 : n = 0 ∨ n = 99 := by omega
        have : ¬ (if n = 99 then -1 else (n : Int)) > 0 := by rcases h0 with rfl | rfl <;> simp
        rw [if_neg this]
        obtain ⟨o, s2, k1, k2, k3, j, log, k4, k5⟩ := coverage_signal rounds s1
        refine ⟨o, s2, h1.trans k1, k2, k3, j + 1, log, .next h2 h3 h0 k4, ?_⟩
        rcases k5 with ⟨a, b, c⟩ | ⟨n, a, b, c⟩ | ⟨ok, a, b, c⟩
        · exact .inl ⟨a, by omega, c⟩
        · exact .inr (.inl ⟨n, a, by omega, c⟩)
        · exact .inr (.inr ⟨ok, a, by omega, c⟩)
    · rw [h4]
      exact ⟨.failed, s1, h1, rfl, ⟨e, rfl, h5⟩, 0, s.log, .none, .inr (.inr ⟨ok, rfl, by omega, h2, h3⟩)⟩

theorem replicate_push (k : Nat) (c : PyStr) (old : List PyStr) : c :: (List.replicate k c ++ old) = List.replicate (k + 1) c ++ old := rfl

theorem coverage_from (hdep : 0 < env.depth) (old : List PyStr) (rounds : Nat) : ∀ (r k : Nat) (s : St), k + r = rounds → s.log = List.replicate k cregCmd ++ old →
    Searching env.reply old k → ∃ o s1, OnlyLog s s1 ∧ (coverageLoop r true env s).2 = s1 ∧ Outcome.Result o (coverageLoop r true env s).1 ∧
      Wait env.reply rounds old s1.log o
  | 0, k, s, hk, hl, hs => by
    refine ⟨.timedOut, s, .refl s, rfl, rfl, ?_⟩
    rw [hl]
    obtain rfl : k = rounds := by omega
    exact .searching hs
  | r + 1, k, s, hk, hl, hs => by
    simp only [coverageLoop, run_bind, write]
    cases hd : env.depth with
    | zero =>
      omega
    | succ depth =>
      simp only [writeN]
      have hlog : (py!"AT+CREG?" ++ [13]) :: s.log = List.replicate (k + 1) cregCmd ++ old := by rw [hl]; rfl
      rw [hlog]
      cases hr : env.reply (List.replicate (k + 1) cregCmd ++ old) with
      | timeout d =>
        refine ⟨.failed, _, ⟨_, s.writeWait, rfl⟩, rfl, ⟨_, rfl, by simp⟩, .unanswered (k := k) (by omega) hs ?_⟩
        rintro ⟨ls, h, _⟩
        rw [hr] at h; cases h
      | lines ls =>
        cases hls : ls.getLast? with
        | none =>
          simp only [hls]
          refine ⟨.failed, _, ⟨_, s.writeWait, rfl⟩, rfl, ⟨_, rfl, by simp⟩, .unanswered (k := k) (by omega) hs ?_⟩
          rintro ⟨ls', h, h', _⟩
          rw [hr] at h; cases h
          exact h' (List.getLast?_eq_none_iff.1 hls)
        | some line =>
          simp only [hls, Bool.false_eq_true, if_false]
          have hne : ls ≠ [] := by rintro rfl; simp at hls
          have hgo : ∀ {b}, OnlyLog { s with log := List.replicate (k + 1) cregCmd ++ old } b → OnlyLog s b :=
            fun h => OnlyLog.trans ⟨_, s.writeWait, rfl⟩ h
          have reg : Registered env.reply (List.replicate (k + 1) cregCmd ++ old) → ∃ o s1, OnlyLog s s1 ∧
              (coverageLoop r false env { s with log := List.replicate (k + 1) cregCmd ++ old }).2 = s1 ∧
              Outcome.Result o (coverageLoop r false env { s with log := List.replicate (k + 1) cregCmd ++ old }).1 ∧ Wait env.reply rounds old s1.log o := by
            intro hreg
            obtain ⟨o, s1, k1, k2, k3, j, log, k4, k5⟩ := coverage_signal (env := env) r { s with log := List.replicate (k + 1) cregCmd ++ old }
            refine ⟨o, s1, hgo k1, k2, k3, ?_⟩
            rcases k5 with ⟨rfl, a, rfl⟩ | ⟨n, rfl, a, b, c, d, e⟩ | ⟨ok, rfl, a, b, c⟩
            · exact .noSignal (by omega) hs hreg k4
            · exact .signal (by omega) hs hreg k4 b c d e
            · exact .failed (by omega) hs hreg k4 b c
          rcases creg_answer ls with ⟨h1, h2⟩ | ⟨d, n, h1, h2, h3⟩
          · simp only [h2]
            exact reg ⟨ls, hr, hne, .inr (.inr h1)⟩
          · simp only [h2, run_bind, run_ofExcept, h3]
            by_cases h15 : n = 1 ∨ n = 5
            · have : (n : Int) = 1 ∨ (n : Int) = 5 := by omega
              rw [if_pos this]
              refine reg ⟨ls, hr, hne, ?_⟩
              rcases h15 with rfl | rfl
              · exact .inl h1
              · exact .inr (.inl h1)
            · have : ¬ ((n : Int) = 1 ∨ (n : Int) = 5) := by omega
              rw [if_neg this]
              by_cases h30 : n = 0 ∨ n = 3
              · have href : Refused env.reply (List.replicate (k + 1) cregCmd ++ old) := by
                  refine ⟨ls, hr, hne, ?_⟩
                  rcases h30 with rfl | rfl
                  · exact .inl h1
                  · exact .inr h1
                rcases h30 with rfl | rfl <;>
                  exact ⟨.refused, _, ⟨_, s.writeWait, rfl⟩, rfl, rfl, .refused (by omega) hs href⟩
              · have e3 : ¬ (n : Int) = 3 := by omega
                have e0 : ¬ (n : Int) = 0 := by omega
                rw [if_neg e3, if_neg e0]
                obtain ⟨o, s1, k1, k2, k3, k4⟩ := coverage_from hdep old rounds r (k + 1) { s with log := List.replicate (k + 1) cregCmd ++ old } (by omega) rfl (by
                  intro i hi
                  by_cases hik : i < k
                  · exact hs i hik
                  · obtain rfl : i = k := by omega
                    exact ⟨ls, hr, hne, n, h1, by omega, by omega, by omega, by omega⟩)
                exact ⟨o, s1, hgo k1, k2, k3, k4⟩

end Gsm
