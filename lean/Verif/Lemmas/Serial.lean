import Verif.Model.Serial
import Verif.Spec.Serial
import Verif.Lemmas.Regex
namespace Gsm
open Spec

theorem endsWith_iff {xs seq : PyStr} : endsWith xs seq = true ↔ seq <:+ xs := by
  unfold endsWith
  rw [beq_iff_eq, List.suffix_iff_eq_drop, eq_comm]

theorem rxMatches_lit {l s : PyStr} : rxMatches (rxLit l) s = true ↔ l <+: s := by
  unfold rxMatches rxMatch?
  constructor
  · intro h
    cases hr : rxRun (rxLit l) s ⟨[], []⟩ with
    | none => rw [hr] at h; cases h
    | some x =>
      rw [← List.append_nil (rxLit l)] at hr
      obtain ⟨s', rfl, _⟩ := rxRun_lit_some hr
      exact List.prefix_append _ _
  · rintro ⟨t, rfl⟩
    have := rxRun_lit l [] t ⟨[], []⟩
    rw [List.append_nil] at this
    rw [this]
    rfl

theorem isResponseTerm_iff {line : PyStr} : isResponseTerm line = true ↔ IsFinal line := by
  unfold isResponseTerm IsFinal
  simp only [Bool.or_eq_true, rxMatches_lit, or_assoc]
  refine or_congr Iff.rfl (or_congr Iff.rfl (or_congr ?_ ?_))
  · constructor
    · intro h
      unfold rxMatches rxMatch? at h
      cases hr : rxRun (rxLit py!"+CM" ++ .ch (fun c => decide (c = 69 ∨ c = 83)) :: rxLit py!" ERROR: " ++ [rxPlus isD])
          line ⟨[], []⟩ with
      | none => rw [hr] at h; cases h
      | some x =>
        rw [List.append_assoc] at hr
        obtain ⟨s1, rfl, h1⟩ := rxRun_lit_some hr
        cases s1 with
        | nil => simp [rxRun] at h1
        | cons e s1 =>
          simp only [List.cons_append, rxRun] at h1
          split at h1
          · next he =>
            simp only [decide_eq_true_eq] at he
            obtain ⟨s2, rfl, h2⟩ := rxRun_lit_some h1
            simp only [rxPlus, rxRun, if_true] at h2
            obtain ⟨w, s3, rfl, g1, g2, _, _⟩ := repGreedy_sound h2
            cases w with
            | nil => simp at g2
            | cons d w =>
              have hd := g1 d (by simp)
              simp only [isD, decide_eq_true_eq] at hd
              refine ⟨d, hd.1, hd.2, ?_⟩
              rcases he with rfl | rfl
              · exact .inl ⟨w ++ s3, by simp⟩
              · exact .inr ⟨w ++ s3, by simp⟩
          · cases h1
    · rintro ⟨d, h1, h2, ⟨t, rfl⟩ | ⟨t, rfl⟩⟩
      · simp [rxMatches, rxMatch?, rxLit, rxRun, rxPlus]
        have : repGreedy isD (fun s cur => some (([] : List PyStr), s)) 1 none (d :: t) (py!"+CME ERROR: ") ≠ none := by
          have := repGreedy_complete (p := isD) (k := fun s cur => some (([] : List PyStr), s)) (w := [d]) (lo := 1)
            (hi := none) (s := t) (cur := py!"+CME ERROR: ") (by simp [isD, h1, h2]) (by simp) (by simp) rfl
          intro hc
          simp only [List.singleton_append] at this
          rw [hc] at this
          cases this
        cases hr : repGreedy isD (fun s cur => some (([] : List PyStr), s)) 1 none (d :: t) (py!"+CME ERROR: ") with
        | none => exact absurd hr this
        | some x => rfl
      · simp [rxMatches, rxMatch?, rxLit, rxRun, rxPlus]
        have : repGreedy isD (fun s cur => some (([] : List PyStr), s)) 1 none (d :: t) (py!"+CMS ERROR: ") ≠ none := by
          have := repGreedy_complete (p := isD) (k := fun s cur => some (([] : List PyStr), s)) (w := [d]) (lo := 1)
            (hi := none) (s := t) (cur := py!"+CMS ERROR: ") (by simp [isD, h1, h2]) (by simp) (by simp) rfl
          intro hc
          simp only [List.singleton_append] at this
          rw [hc] at this
          cases this
        cases hr : repGreedy isD (fun s cur => some (([] : List PyStr), s)) 1 none (d :: t) (py!"+CMS ERROR: ") with
        | none => exact absurd hr this
        | some x => rfl
  · unfold rxMatches rxMatch?
    constructor
    · intro h
      cases hr : rxRun (rxLit py!"COMMAND NOT SUPPORT" ++ [Rx.eol]) line ⟨[], []⟩ with
      | none => rw [hr] at h; cases h
      | some x =>
        obtain ⟨s', rfl, h1⟩ := rxRun_lit_some hr
        simp only [rxRun] at h1
        split at h1
        · next h2 =>
          rcases h2 with rfl | rfl
          · exact .inl (by simp)
          · exact .inr rfl
        · cases h1
    · rintro (rfl | rfl)
      · rfl
      · rfl

/-! ### Framing -/

theorem noEol_nil : NoEol [] := by unfold NoEol; decide

theorem noEol_snoc {b : List Nat} {c : Nat} (h : NoEol b) (hc : ¬ [13, 10] <:+ b ++ [c]) : NoEol (b ++ [c]) := by
  rintro ⟨x, y, e⟩
  rcases List.eq_nil_or_concat y with rfl | ⟨y, d, rfl⟩
  · exact hc ⟨x, by simpa using e⟩
  · rw [List.concat_eq_append, ← List.append_assoc] at e
    have := List.append_inj_left' e rfl
    exact h ⟨x, y, this⟩

theorem noEol_left {a b : List Nat} (h : NoEol (a ++ b)) : NoEol a := by
  rintro ⟨x, y, e⟩
  exact h ⟨x, y ++ b, by rw [← e]; simp⟩

theorem framed_rest {P s ls r} (h : Framed P s ls r) : NoEol r := by
  induction h with
  | rest h => exact h
  | empty _ ih => exact ih
  | line _ _ _ ih => exact ih
  | prompt _ _ _ _ ih => exact ih

theorem framed_mono {P Q : List Nat → Prop} {s ls r} (hpq : ∀ p, P p → Q p) (h : Framed P s ls r) : Framed Q s ls r := by
  induction h with
  | rest h => exact .rest h
  | empty _ ih => exact .empty ih
  | line h1 h2 _ ih => exact .line h1 h2 ih
  | prompt h1 h2 h3 _ ih => exact .prompt (hpq _ h1) h2 h3 ih

theorem framed_keep {P s ls r c} (h : Framed P s ls r) (hc : NoEol (r ++ [c])) : Framed P (s ++ [c]) ls (r ++ [c]) := by
  induction h with
  | rest _ => exact .rest hc
  | empty _ ih => exact .empty (ih hc)
  | line h1 h2 _ ih => rw [List.append_assoc]; exact .line h1 h2 (ih hc)
  | prompt h1 h2 h3 _ ih => rw [List.append_assoc]; exact .prompt h1 h2 h3 (ih hc)

theorem framed_line {P s ls r c l} (h : Framed P s ls r) (hc : r ++ [c] = l ++ [13, 10]) (hl : NoEol l) :
    Framed P (s ++ [c]) (ls ++ if l = [] then [] else [l]) [] := by
  induction h with
  | rest _ =>
    rw [hc]
    by_cases h : l = []
    · subst h; exact .empty (.rest noEol_nil)
    · rw [if_neg h]; exact .line h hl (.rest noEol_nil)
  | empty _ ih => exact .empty (ih hc)
  | line h1 h2 _ ih => rw [List.append_assoc]; exact .line h1 h2 (ih hc)
  | prompt h1 h2 h3 _ ih => rw [List.append_assoc]; exact .prompt h1 h2 h3 (ih hc)

theorem framed_prompt {P s ls r c p} (h : Framed P s ls r) (hp : P p) (hs : p <:+ r ++ [c]) (hl : NoEol (r ++ [c])) :
    Framed P (s ++ [c]) (ls ++ [r ++ [c]]) [] := by
  induction h with
  | @rest r _ =>
    have := Framed.prompt hp hs hl (.rest noEol_nil)
    rwa [List.append_nil] at this
  | empty _ ih => exact .empty (ih hs hl)
  | line h1 h2 _ ih => rw [List.append_assoc]; exact .line h1 h2 (ih hs hl)
  | prompt h1 h2 h3 _ ih => rw [List.append_assoc]; exact .prompt h1 h2 h3 (ih hs hl)

/-! ### Steps of the reader -/

@[simp] theorem handleLineRead_handed (s : Comms) (l ct m) : (handleLineRead s l ct m).handed = s.handed ++ [l] := by
  unfold handleLineRead
  simp only
  split
  · rfl
  · split <;> rfl
@[simp] theorem handleLineRead_buffer (s : Comms) (l ct m) : (handleLineRead s l ct m).rxBuffer = s.rxBuffer := by
  unfold handleLineRead
  simp only
  split
  · rfl
  · split <;> rfl
@[simp] theorem handleLineRead_alive (s : Comms) (l ct m) : (handleLineRead s l ct m).alive = s.alive := by
  unfold handleLineRead
  simp only
  split
  · rfl
  · split <;> rfl
@[simp] theorem handleLineRead_expect (s : Comms) (l ct m) : (handleLineRead s l ct m).expect = s.expect := by
  unfold handleLineRead
  simp only
  split
  · rfl
  · split <;> rfl
@[simp] theorem handleLineRead_outcomes (s : Comms) (l ct m) : (handleLineRead s l ct m).outcomes = s.outcomes := by
  unfold handleLineRead
  simp only
  split
  · rfl
  · split <;> rfl

/-- The three things a character can do. -/
theorem readChar_cases (s : Comms) (c : Nat) (m : Bool) :
    (∃ l, s.rxBuffer ++ [c] = l ++ [13, 10] ∧ l ≠ [] ∧
      readChar s c m = handleLineRead { s with rxBuffer := [] } l true m) ∨
    (s.rxBuffer ++ [c] = [13, 10] ∧ readChar s c m = { s with rxBuffer := [] }) ∨
    (¬ [13, 10] <:+ s.rxBuffer ++ [c] ∧ ∃ seq, s.expect = some seq ∧ seq <:+ s.rxBuffer ++ [c] ∧
      readChar s c m = handleLineRead { s with rxBuffer := [] } (s.rxBuffer ++ [c]) false m) ∨
    (¬ [13, 10] <:+ s.rxBuffer ++ [c] ∧ (∀ seq, s.expect = some seq → ¬ seq <:+ s.rxBuffer ++ [c]) ∧
      readChar s c m = { s with rxBuffer := s.rxBuffer ++ [c] }) := by
  by_cases h : [13, 10] <:+ s.rxBuffer ++ [c]
  · obtain ⟨l, hl⟩ := h
    have h1 : endsWith (s.rxBuffer ++ [c]) [13, 10] = true := endsWith_iff.2 ⟨l, hl⟩
    have h2 : (s.rxBuffer ++ [c]).take ((s.rxBuffer ++ [c]).length - 2) = l := by
      rw [← hl]; simp
    by_cases hne : l = []
    · subst hne
      refine .inr (.inl ⟨by simpa using hl.symm, ?_⟩)
      unfold readChar
      simp only [h1, if_true, h2]
      rfl
    · refine .inl ⟨l, hl.symm, hne, ?_⟩
      unfold readChar
      simp only [h1, if_true, h2]
      rw [if_pos (List.length_pos_iff.2 hne)]
  · refine .inr (.inr ?_)
    have h1 : endsWith (s.rxBuffer ++ [c]) [13, 10] = false := by
      rw [← Bool.not_eq_true, endsWith_iff]; exact h
    unfold readChar
    simp only [h1, Bool.false_eq_true, if_false]
    cases hx : s.expect with
    | none => exact .inr ⟨h, by simp, rfl⟩
    | some seq =>
      by_cases hs : seq <:+ s.rxBuffer ++ [c]
      · refine .inl ⟨h, seq, rfl, hs, ?_⟩
        simp only [endsWith_iff.2 hs, if_true]
      · refine .inr ⟨h, ?_, ?_⟩
        · intro q hq; cases hq; exact hs
        · have : endsWith (s.rxBuffer ++ [c]) seq = false := by rw [← Bool.not_eq_true, endsWith_iff]; exact hs
          simp only [this, Bool.false_eq_true, if_false]

end Gsm
