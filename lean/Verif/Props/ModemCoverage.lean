import Verif.Lemmas.Coverage
import Verif.Spec.Coverage
import Verif.Props.Util
import Verif.Spec.ExampleModem
/-! # Property C45: waiting for network coverage -/
namespace Gsm
open M Spec

variable {env : Env}

/-- What a wait for coverage writes, and how it ends. Nothing else of the modem object changes. -/
theorem C45_coverage (hdep : 0 < env.depth) (rounds : Nat) (s : St) : ∃ o s1, OnlyLog s s1 ∧ (waitForNetworkCoverage rounds env s).2 = s1 ∧
    Outcome.Result o (waitForNetworkCoverage rounds env s).1 ∧ Wait env.reply rounds s.log s1.log o :=
  coverage_from hdep s.log rounds rounds 0 s (by omega) rfl (by intro i hi; omega)

/-- The result is a signal strength greater than 0 that the modem told in its last answer. -/
theorem C45_strength (hdep : 0 < env.depth) {rounds : Nat} {s s1 : St} {v : Int} (h : waitForNetworkCoverage rounds env s = (.ok v, s1)) :
    0 < v ∧ v ≠ 99 ∧ Accepted env.reply s1.log ∧ Signal env.reply s1.log v.toNat ∧
      ∃ k, 0 < k ∧ Registered env.reply (List.replicate k cregCmd ++ s.log) ∧ List.replicate k cregCmd ++ s.log <:+ s1.log := by
  obtain ⟨o, s1', h1, h2, h3, h4⟩ := C45_coverage hdep rounds s
  rw [h] at h2 h3
  dsimp only at h2 h3
  subst h2
  generalize s1.log = lg at h4 ⊢
  cases h4 with
  | signal a b c d e f g hh =>
    simp only [Outcome.Result, Except.ok.injEq] at h3
    subst h3
    have hsuf : ∀ {j a b}, NoSignal env.reply j a b → a <:+ b := by
      intro j a b hj
      induction hj with
      | none => exact List.suffix_refl _
      | next ht _ _ _ ih =>
        exact (accepted_of_trans ht rfl).2.trans ih
    have he := accepted_of_trans e rfl
    exact ⟨by omega, by omega, he.1, by simpa using f, _, Nat.succ_pos _, c, (hsuf d).trans he.2⟩
  | searching => simp [Outcome.Result] at h3
  | refused => simp [Outcome.Result] at h3
  | unanswered => simp [Outcome.Result] at h3
  | noSignal => simp [Outcome.Result] at h3
  | failed => simp [Outcome.Result] at h3

/-- InvalidState is raised exactly when the registration is refused, after answers that the modem is still searching. -/
theorem C45_refused_iff (hdep : 0 < env.depth) {rounds : Nat} {s : St} : (waitForNetworkCoverage rounds env s).1 = .error .invalidState ↔
    ∃ k < rounds, Searching env.reply s.log k ∧ Refused env.reply (List.replicate (k + 1) cregCmd ++ s.log) := by
  constructor
  · intro h
    obtain ⟨o, s1, h1, h2, h3, h4⟩ := C45_coverage hdep rounds s
    rw [h] at h3
    generalize s1.log = lg at h4
    cases h4 with
    | refused a b c => exact ⟨_, a, b, c⟩
    | signal => simp [Outcome.Result] at h3
    | searching => simp [Outcome.Result] at h3
    | unanswered => simp [Outcome.Result] at h3
    | noSignal => simp [Outcome.Result] at h3
    | failed => simp [Outcome.Result] at h3
  · rintro ⟨k, hk, hs, hr⟩
    obtain ⟨o, s1, h1, h2, h3, h4⟩ := C45_coverage hdep rounds s
    have uniq : ∀ {k'} {P : List PyStr → Prop}, Searching env.reply s.log k → Answer env.reply (List.replicate (k' + 1) cregCmd ++ s.log) P → k' < k →
        ∃ ls n, P ls ∧ Tells ls n ∧ n ≠ 0 ∧ n ≠ 1 ∧ n ≠ 3 ∧ n ≠ 5 := by
      rintro k' P hs ⟨ls, h, _, hP⟩ hlt
      obtain ⟨ls', h', _, n, hn⟩ := hs k' hlt
      rw [h] at h'; cases h'
      exact ⟨ls, n, hP, hn⟩
    have stop : ∀ {k'}, Searching env.reply s.log k' → k' ≤ k := by
      intro k' hs'
      by_contra hlt
      obtain ⟨ls, h, _, n, hn, n0, n1, n3, n5⟩ := hs' k (by omega)
      obtain ⟨ls', h', _, hx⟩ := hr
      rw [h] at h'; cases h'
      rcases hx with hx | hx
      · exact n0 (tells_unique hn hx)
      · exact n3 (tells_unique hn hx)
    have noReg : ∀ {k'}, Searching env.reply s.log k' → ¬ Registered env.reply (List.replicate (k' + 1) cregCmd ++ s.log) := by
      intro k' hs' hreg
      rcases Nat.lt_or_eq_of_le (stop hs') with hlt | rfl
      · obtain ⟨ls, n, hP, hn, n0, n1, n3, n5⟩ := uniq hs hreg hlt
        rcases hP with hP | hP | hP
        · exact n1 (tells_unique hn hP)
        · exact n5 (tells_unique hn hP)
        · obtain ⟨p, l, q, rfl, hl, _⟩ := hn
          exact hP l (by simp) n hl
      · obtain ⟨ls, h, _, hP⟩ := hreg
        obtain ⟨ls', h', _, hx⟩ := hr
        rw [h] at h'; cases h'
        have : ∃ n, Tells ls n ∧ (n = 0 ∨ n = 3) := by
          rcases hx with hx | hx
          · exact ⟨0, hx, .inl rfl⟩
          · exact ⟨3, hx, .inr rfl⟩
        obtain ⟨n, hn, hn'⟩ := this
        rcases hP with hP | hP | hP
        · have := tells_unique hn hP; omega
        · have := tells_unique hn hP; omega
        · obtain ⟨p, l, q, rfl, hl, _⟩ := hn
          exact hP l (by simp) n hl
    generalize s1.log = lg at h4
    cases h4 with
    | refused a b c => exact h3
    | signal a b c => exact absurd c (noReg b)
    | searching a => have := stop a; omega
    | noSignal a b c => exact absurd c (noReg b)
    | failed a b c => exact absurd c (noReg b)
    | @unanswered k' a b e =>
      refine absurd ?_ e
      rcases Nat.lt_or_eq_of_le (stop b) with hlt | rfl
      · obtain ⟨ls, h, h', _⟩ := hs k' hlt
        exact ⟨ls, h, h', trivial⟩
      · obtain ⟨ls, h, h', _⟩ := hr
        exact ⟨ls, h, h', trivial⟩

/-- A modem that searches twice, is registered, has no signal once and then has one of 17. -/
def coverageModem : Env := modemWith fun log =>
  match log with
  | [_] | [_, _] => some (.lines [py!"+CREG: 0,2", py!"OK"])
  | [_, _, _] => some (.lines [py!"+CREG: 0,5", py!"OK"])
  | [_, _, _, _] => some (.lines [py!"+CSQ: 99,99", py!"OK"])
  | _ => some (.lines [py!"+CSQ: 17,99", py!"OK"])

example : (waitForNetworkCoverage 9 coverageModem {}).1 = .ok 17 ∧ (waitForNetworkCoverage 4 coverageModem {}).1 = .error (.timeout none) := by decide +kernel
example : (waitForNetworkCoverage 9 (modemWith fun log => some (.lines (if log.length < 3 then [py!"+CREG: 0,2", py!"OK"] else [py!"+CREG: 0,3", py!"OK"]))) {}).1 =
    .error .invalidState := by decide +kernel

end Gsm
