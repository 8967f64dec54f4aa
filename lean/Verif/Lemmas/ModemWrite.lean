import Verif.Model.Modem
import Verif.Lemmas.Regex
import Verif.Lemmas.PyInt
namespace Gsm
open M Spec

theorem pyContains_iff {sub : PyStr} : ∀ {s : PyStr}, pyContains sub s = true ↔ sub <:+: s
  | [] => by
    simp only [pyContains, List.isEmpty_iff, List.infix_nil]
  | c :: s => by
    simp only [pyContains, Bool.or_eq_true, List.isPrefixOf_iff_prefix, pyContains_iff (s := s), List.infix_cons_iff]

/-! ### Evaluation of patterns -/

theorem rxRun_lit' (l : PyStr) (is : List Rx) (s : PyStr) (cap : Caps) :
    rxRun (rxLit l ++ is) (l ++ s) cap = rxRun is s ⟨cap.done, cap.cur ++ l⟩ := rxRun_lit l is s cap

theorem rxRun_rep_some {p : Nat → Bool} {lo : Nat} {hi : Option Nat} {gr : Bool} {is : List Rx} {s : PyStr} {cap : Caps} {x}
    (h : rxRun (.rep p lo hi gr :: is) s cap = some x) :
    ∃ w s', s = w ++ s' ∧ (∀ c ∈ w, p c = true) ∧ lo ≤ w.length ∧ (∀ n, hi = some n → w.length ≤ n) ∧
      rxRun is s' ⟨cap.done, cap.cur ++ w⟩ = some x := by
  simp only [rxRun] at h
  split at h
  · exact repGreedy_sound h
  · exact repLazy_sound h

theorem rxRun_ch_some {p : Nat → Bool} {is : List Rx} {s : PyStr} {cap : Caps} {x}
    (h : rxRun (.ch p :: is) s cap = some x) :
    ∃ c s', s = c :: s' ∧ p c = true ∧ rxRun is s' ⟨cap.done, cap.cur ++ [c]⟩ = some x := by
  cases s with
  | nil => simp [rxRun] at h
  | cons c s =>
    simp only [rxRun] at h
    split at h
    · next hp => exact ⟨c, s, rfl, hp, h⟩
    · cases h

theorem rxRun_eol_some {is : List Rx} {s : PyStr} {cap : Caps} {x} (h : rxRun (.eol :: is) s cap = some x) :
    (s = [] ∨ s = [10]) ∧ rxRun is s cap = some x := by
  simp only [rxRun] at h
  split at h
  · next hp => exact ⟨hp, h⟩
  · cases h

theorem rxRun_lit_cons (a : Nat) (l : PyStr) (is : List Rx) (s : PyStr) (cap : Caps) :
    rxRun (rxLit (a :: l) ++ is) (a :: s) cap = rxRun (rxLit l ++ is) s ⟨cap.done, cap.cur ++ [a]⟩ := by
  simp [rxLit, rxRun]
theorem rxRun_lit_nil (is : List Rx) (s : PyStr) (cap : Caps) : rxRun (rxLit [] ++ is) s cap = rxRun is s cap := rfl
theorem rxRun_op (is : List Rx) (s : PyStr) (cap : Caps) : rxRun (.op :: is) s cap = rxRun is s ⟨cap.done, []⟩ := by
  simp only [rxRun]
theorem rxRun_cl (is : List Rx) (s : PyStr) (cap : Caps) :
    rxRun (.cl :: is) s cap = rxRun is s ⟨cap.done ++ [cap.cur], []⟩ := by
  simp only [rxRun]
theorem rxRun_nil (s : PyStr) (cap : Caps) : rxRun [] s cap = some (cap.done, s) := by simp only [rxRun]
theorem rxRun_ch {p : Nat → Bool} {c : Nat} (h : p c = true) (is : List Rx) (s : PyStr) (cap : Caps) :
    rxRun (.ch p :: is) (c :: s) cap = rxRun is s ⟨cap.done, cap.cur ++ [c]⟩ := by simp only [rxRun, h, if_true]
theorem rxRun_eol {s : PyStr} (h : s = [] ∨ s = [10]) (is : List Rx) (cap : Caps) :
    rxRun (.eol :: is) s cap = rxRun is s cap := by simp only [rxRun, if_pos h]

/-- The longest run of the class, when what follows matches. -/
theorem rxRun_rep_longest {p : Nat → Bool} {lo : Nat} {is : List Rx} {w s : PyStr} {cap : Caps} {x}
    (h1 : ∀ c ∈ w, p c = true) (h2 : lo ≤ w.length) (h3 : ∀ c, s.head? = some c → p c = false)
    (hk : rxRun is s ⟨cap.done, cap.cur ++ w⟩ = some x) :
    rxRun (.rep p lo none true :: is) (w ++ s) cap = some x := by
  simp only [rxRun, if_true]
  exact repGreedy_longest h1 h2 h3 hk

/-- End of a line for `$`. -/
def AtEnd (s : PyStr) : Prop := s = [] ∨ s = [10]

theorem atEnd_head {s : PyStr} (h : AtEnd s) {c : Nat} (hc : s.head? = some c) : isD c = false := by
  rcases h with rfl | rfl
  · cases hc
  · simp at hc; subst hc; rfl

/-! ### `+CME ERROR: n` and `+CMS ERROR: n` -/

theorem cmError_iff {line : PyStr} {g : List PyStr} :
    rxGroups cmErrorRegex line = some g ↔ ∃ ty ds, g = [ty, ds] ∧ IsCmError ty ds line := by
  unfold rxGroups rxMatch? cmErrorRegex
  constructor
  · intro h
    rw [Option.map_eq_some_iff] at h
    obtain ⟨⟨g', r⟩, h, rfl⟩ := h
    simp only [rxGrp, List.append_assoc, List.cons_append, List.nil_append] at h
    obtain ⟨s1, rfl, h1⟩ := rxRun_lit_some h
    rw [rxRun_op] at h1
    obtain ⟨s2, rfl, h2⟩ := rxRun_lit_some h1
    obtain ⟨e, s3, rfl, he, h3⟩ := rxRun_ch_some h2
    rw [rxRun_cl] at h3
    obtain ⟨s4, rfl, h4⟩ := rxRun_lit_some h3
    rw [rxRun_op] at h4
    obtain ⟨ds, s5, rfl, hd, hl, _, h5⟩ := rxRun_rep_some h4
    rw [rxRun_cl] at h5
    obtain ⟨hend, h6⟩ := rxRun_eol_some h5
    simp only [rxRun_nil, List.nil_append, Option.some.injEq, Prod.mk.injEq] at h6
    · refine ⟨[67, 77, e], ds, by rw [← h6.1]; simp, ?_, ?_, fun c hc => isD_iff.1 (hd c hc), s5, hend, ?_⟩
      · simp only [decide_eq_true_eq] at he
        rcases he with rfl | rfl
        · exact .inl rfl
        · exact .inr rfl
      · rintro rfl; simp at hl
      · simp
  · rintro ⟨ty, ds, rfl, hty, hne, hd', t, ht, rfl⟩
    have hd : ∀ c ∈ ds, isD c = true := fun c hc => isD_iff.2 (hd' c hc)
    have key : ∀ e, (e = 69 ∨ e = 83) → Option.map (·.1) (rxRun (rxLit py!"+" ++ rxGrp (rxLit py!"CM" ++ [.ch (fun c => decide (c = 69 ∨ c = 83))]) ++ rxLit py!" ERROR: " ++
        rxGrp [rxPlus isD] ++ [.eol]) (py!"+" ++ [67, 77, e] ++ py!" ERROR: " ++ ds ++ t) ⟨[], []⟩) = some [[67, 77, e], ds] := by
      intro e he
      have h1 : rxRun (rxPlus isD :: .cl :: [.eol]) (ds ++ t) ⟨[[67, 77, e]], []⟩ = some ([[67, 77, e], ds], t) := by
        refine rxRun_rep_longest hd (by cases ds with | nil => exact absurd rfl hne | cons _ _ => simp) (fun c hc => atEnd_head ht hc) ?_
        rw [rxRun_cl, rxRun_eol ht, rxRun_nil]
        simp
      simp only [rxGrp, List.append_assoc, List.cons_append, List.nil_append]
      have hee : decide (e = 69 ∨ e = 83) = true := by simpa using he
      simp only [rxRun_lit_cons, rxRun_lit_nil, rxRun_op, rxRun_cl, rxRun_ch (p := fun c => decide (c = 69 ∨ c = 83)) hee,
        List.nil_append, List.cons_append]
      rw [h1]
      rfl
    rcases hty with rfl | rfl
    · exact key 69 (.inl rfl)
    · exact key 83 (.inr rfl)

theorem cmError_unique {line ty ds ty' ds' : PyStr} (h : IsCmError ty ds line) (h' : IsCmError ty' ds' line) :
    ty = ty' ∧ ds = ds' := by
  have h1 := cmError_iff.2 ⟨ty, ds, rfl, h⟩
  have h2 := cmError_iff.2 ⟨ty', ds', rfl, h'⟩
  rw [h1] at h2
  simpa using h2

theorem cmError_contains {line ty ds : PyStr} (h : IsCmError ty ds line) : pyContains py!"ERROR" line = true := by
  obtain ⟨_, _, _, t, _, rfl⟩ := h
  rw [pyContains_iff]
  exact ⟨py!"+" ++ ty ++ py!" ", py!": " ++ ds ++ t, by simp⟩

/-! ### `classify` -/

theorem classify_cm {line ty ds : PyStr} (h : IsCmError ty ds line) :
    classify line = if decVal ds = 515 ∨ decVal ds = 14 then .busy (decVal ds) else .failed (errorFor ty (decVal ds)) := by
  unfold classify
  rw [if_pos (cmError_contains h), cmError_iff.2 ⟨ty, ds, rfl, h⟩]
  simp only [pyInt, pyInt_digits h.2.1 (fun c hc => isD_iff.2 (h.2.2.1 c hc))]
  have e1 : ((decVal ds : Int) = 515 ∨ (decVal ds : Int) = 14) ↔ (decVal ds = 515 ∨ decVal ds = 14) := by omega
  simp only [e1]
  split
  · rfl
  · unfold errorFor
    rw [Int.toNat_natCast]
    split
    · unfold cmeError
      generalize decVal ds = n
      split
      · next h => subst h; rfl
      · split
        · next h => subst h; rfl
        · split
          · next h => subst h; rfl
          · congr 2
            split <;> simp_all
    · unfold cmsError
      generalize decVal ds = n
      split
      · next h => subst h; rfl
      · congr 2
        split <;> simp_all

theorem classify_plain {line : PyStr} (h : py!"ERROR" <:+: line) (hn : ∀ ty ds, ¬ IsCmError ty ds line) :
    classify line = .failed (.command .command none) := by
  unfold classify
  rw [if_pos (pyContains_iff.2 h)]
  have : rxGroups cmErrorRegex line = none := by
    cases hr : rxGroups cmErrorRegex line with
    | none => rfl
    | some g =>
      obtain ⟨ty, ds, _, h'⟩ := cmError_iff.1 hr
      exact absurd h' (hn ty ds)
  rw [this]

theorem classify_fine {line : PyStr} : classify line = .fine ↔ ¬ py!"ERROR" <:+: line ∧ line ≠ py!"COMMAND NOT SUPPORT" := by
  by_cases h : py!"ERROR" <:+: line
  · have : classify line ≠ .fine := by
      by_cases hc : ∃ ty ds, IsCmError ty ds line
      · obtain ⟨ty, ds, hc⟩ := hc
        rw [classify_cm hc]
        split <;> simp
      · rw [classify_plain h (fun ty ds hx => hc ⟨ty, ds, hx⟩)]
        simp
    exact ⟨fun hx => absurd hx this, fun hx => absurd h hx.1⟩
  · unfold classify
    have hf : pyContains py!"ERROR" line = false := by
      rw [← Bool.not_eq_true, pyContains_iff]; exact h
    rw [hf]
    simp only [Bool.false_eq_true, if_false]
    split
    · next he => exact ⟨by simp, fun hx => absurd he hx.2⟩
    · next he => exact ⟨fun _ => ⟨h, he⟩, fun _ => rfl⟩

end Gsm
