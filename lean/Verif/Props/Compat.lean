import Verif.Lemmas.Compat
/-! # Property C122: waiting for an answer on all versions of Python -/
namespace Gsm

/-! ### C122 -/

/-- C122. Whatever the interleaving: if the event is set before the time is over, `wait` does not return anything but true, on each version with the patch that
is meant for it, however often it was applied (events are never cleared in the library). -/
theorem C122_heard {major minor imports w : Nat} {has : Bool} (hi : 0 < imports) (hw : compatWraps major minor has imports = some w)
    {before after : List WaitMove} (hb : ∀ m ∈ before, m = .step ∨ m = .set) (hc : .clear ∉ after) {r : Option Bool}
    (hr : WaitGives (versionOf major minor) w (before ++ .set :: after) r) : r = some true := by
  have hv : Answering (versionOf major minor) w := by
    intro h
    unfold versionOf at h
    split at h
    · split at h
      · unfold compatWraps at hw
        rw [if_pos ⟨by assumption, by assumption⟩] at hw
        split at hw
        · cases hw; exact hi
        · cases hw
      · cases h
    · cases h
  have := (set_inTime hv hb hc).2
  rw [show (waitRun (versionOf major minor) w (before ++ .set :: after)).stage = .returned r from hr] at this
  exact this

/-- If the event is not set at all, it returns false, on each of these versions. -/
theorem C122_silent {v : PyVersion} {w : Nat} (hv : Answering v w) {ms : List WaitMove} (hs : .set ∉ ms) {r : Option Bool}
    (hr : WaitGives v w ms r) : r = some false := by
  have key : ∀ (ms : List WaitMove) (s : EventState), .set ∉ ms → s.flag = false → (s.stage ≠ .waiting true ∧ s.stage ≠ .relock true ∧ ∀ r, s.stage = .returned r → r = some false) →
      ∀ r, (ms.foldl (waitMove v w) s).stage = .returned r → r = some false := by
    intro ms
    induction ms with
    | nil => intro s _ _ h r hr; exact h.2.2 r hr
    | cons m ms ih =>
      intro s hm hf h r hr
      simp only [List.mem_cons, not_or] at hm
      refine ih _ hm.2 ?_ ?_ r hr
      · cases m with
        | set => exact absurd rfl hm.1
        | clear => rfl
        | step => simp only [waitMove]; repeat' split <;> try exact hf
        | timeUp => simp only [waitMove]; repeat' split <;> try exact hf
      · obtain ⟨flag, stage⟩ := s
        simp only at hf h
        subst hf
        cases m with
        | set => exact absurd rfl hm.1
        | clear => exact h
        | timeUp =>
          cases stage with
          | waiting b => cases b with
            | true => exact absurd rfl h.1
            | false => simp [waitMove]
          | _ => exact h
        | step =>
          cases stage with
          | entry => simp [waitMove]
          | waiting b => cases b with
            | true => exact absurd rfl h.1
            | false => exact h
          | relock b => cases b with
            | true => exact absurd rfl h.2.1
            | false =>
              simp only [waitMove, leaveRaw]
              split
              · next h0 =>
                cases v with
                | py26 => have := hv rfl; omega
                | py27 => simp [rawResult]
                | py3 => simp [rawResult]
              · simp
          | check n =>
            simp only [waitMove]
            split <;> simp
          | returned r => exact h
  exact key ms ⟨false, .entry⟩ hs rfl (by simp) r hr

/-- Without the patch every `write` on Python 2.6 ends with `TimeoutException`, whatever has come. -/
theorem C122_needed {ms : List WaitMove} {r : Option Bool} (hr : WaitGives .py26 0 ms r) (response : List PyStr) :
    r = none ∧ ∃ e, endOfWrite r response = .error e := by
  have key : ∀ (ms : List WaitMove) (s : EventState), (∀ n, s.stage ≠ .check n) → (∀ r, s.stage = .returned r → r = none) → ∀ r, (ms.foldl (waitMove .py26 0) s).stage = .returned r → r = none := by
    intro ms
    induction ms with
    | nil => intro s _ h r hr; exact h r hr
    | cons m ms ih =>
      intro s h1 h2 r hr
      refine ih (waitMove .py26 0 s m) ?_ ?_ r hr
      · obtain ⟨flag, stage⟩ := s
        simp only at h1
        cases m <;> cases stage <;> simp_all [waitMove, leaveRaw, rawResult] <;> (repeat' split) <;> simp_all
      · obtain ⟨flag, stage⟩ := s
        simp only at h1 h2
        cases m <;> cases stage <;> simp_all [waitMove, leaveRaw, rawResult] <;> (repeat' split) <;> simp_all
  have hn := key ms ⟨false, .entry⟩ (by simp) (by simp) r hr
  subst hn
  refine ⟨rfl, ?_⟩
  unfold endOfWrite
  rw [if_neg (by simp)]
  split
  · exact ⟨_, rfl⟩
  · exact ⟨_, rfl⟩

/-- With it, `write` returns the response that was complete in time. -/
theorem C122_write {major minor imports w : Nat} {has : Bool} (hi : 0 < imports) (hw : compatWraps major minor has imports = some w)
    {before after : List WaitMove} (hb : ∀ m ∈ before, m = .step ∨ m = .set) (hc : .clear ∉ after) {r : Option Bool}
    (hr : WaitGives (versionOf major minor) w (before ++ .set :: after) r) (response : List PyStr) : endOfWrite r response = .ok response := by
  rw [C122_heard hi hw hb hc hr]
  rfl

/-- Once the event is set, `wait` ends after at most three steps and one more for each layer, wherever the thread is. -/
theorem C122_ends {v : PyVersion} {w : Nat} (hv : Answering v w) {before : List WaitMove} (hb : ∀ m ∈ before, m = .step ∨ m = .set) {n : Nat} (hn : w + 3 ≤ n) :
    WaitGives v w (before ++ .set :: List.replicate n .step) (some true) := by
  have key : ∀ (n : Nat) (s : EventState), InTime s → (∀ k, s.stage = .check k → 0 < k) → stepsLeft w s.stage ≤ n →
      ((List.replicate n WaitMove.step).foldl (waitMove v w) s).stage = .returned (some true) := by
    intro n
    induction n with
    | zero =>
      intro s h hk hs
      obtain ⟨flag, stage⟩ := s
      cases stage with
      | returned r => have := h.2; simp only at this; subst this; rfl
      | check k => have := hk k rfl; simp only [stepsLeft] at hs; omega
      | _ => simp only [stepsLeft] at hs; omega
    | succ n ih =>
      intro s h hk hs
      rw [List.replicate_succ, List.foldl_cons]
      refine ih _ (inTime_move hv s .step (by decide) h) ?_ ?_
      · obtain ⟨flag, stage⟩ := s
        obtain ⟨hf, hg⟩ := h
        simp only at hf hg hk
        subst hf
        cases stage with
        | entry => simp only [waitMove, leaveRaw, if_true]; intro k; split <;> simp; omega
        | waiting b => subst hg; simp [waitMove]
        | relock b => simp only [waitMove, leaveRaw]; intro k; split <;> simp; omega
        | check k => simp only [waitMove]; intro j; split <;> simp; omega
        | returned r => simp [waitMove]
      · obtain ⟨flag, stage⟩ := s
        obtain ⟨hf, hg⟩ := h
        simp only at hf hg hk hs
        subst hf
        cases stage with
        | entry => simp only [waitMove, leaveRaw, if_true]; simp only [stepsLeft] at hs; split <;> simp only [stepsLeft] <;> omega
        | waiting b => subst hg; simp only [waitMove, stepsLeft] at hs ⊢; omega
        | relock b => simp only [waitMove, leaveRaw]; simp only [stepsLeft] at hs; split <;> simp only [stepsLeft] <;> omega
        | check k => simp only [waitMove]; simp only [stepsLeft] at hs; split <;> simp only [stepsLeft] <;> omega
        | returned r => simp only [waitMove, stepsLeft]; omega
  have hi : InTime (waitRun v w (before ++ [.set])) := set_inTime hv hb (by simp)
  have hc : ∀ k, (waitRun v w (before ++ [.set])).stage = .check k → 0 < k :=
    waitRun_inv (v := v) (w := w) (P := fun s => ∀ k, s.stage = .check k → 0 < k) (by simp) (by
      intro s m _ h k
      obtain ⟨flag, stage⟩ := s
      simp only at h
      cases m with
      | set => cases stage with
        | waiting b => simp [waitMove]
        | _ => exact h k
      | clear => exact h k
      | timeUp =>
        cases stage with
        | waiting b => cases b <;> simp [waitMove]
        | _ => exact h k
      | step =>
        cases stage with
        | entry => cases flag <;> simp only [waitMove, leaveRaw, if_true] <;> (repeat' split) <;> simp <;> omega
        | waiting b => cases b <;> simp [waitMove]
        | relock b => simp only [waitMove, leaveRaw]; split <;> simp; omega
        | check j => simp only [waitMove]; split <;> simp; omega
        | returned r => simp [waitMove]) (by
      simp only [List.mem_append, List.mem_singleton, not_or]
      exact ⟨(fun h => by rcases hb _ h with h | h <;> cases h), (by decide)⟩)
  have hl : ∀ s : EventState, (∀ k, s.stage = .check k → k ≤ w) → stepsLeft w s.stage ≤ w + 3 := by
    intro s h
    obtain ⟨flag, stage⟩ := s
    cases stage with
    | check k => have := h k rfl; simp only [stepsLeft]; omega
    | _ => simp only [stepsLeft]; omega
  have hu : ∀ k, (waitRun v w (before ++ [.set])).stage = .check k → k ≤ w :=
    waitRun_inv (v := v) (w := w) (P := fun s => ∀ k, s.stage = .check k → k ≤ w) (by simp) (by
      intro s m _ h k
      obtain ⟨flag, stage⟩ := s
      simp only at h
      cases m with
      | set => cases stage with
        | waiting b => simp [waitMove]
        | _ => exact h k
      | clear => exact h k
      | timeUp =>
        cases stage with
        | waiting b => cases b <;> simp [waitMove]
        | _ => exact h k
      | step =>
        cases stage with
        | entry => cases flag <;> simp only [waitMove, leaveRaw, if_true] <;> (repeat' split) <;> simp <;> omega
        | waiting b => cases b <;> simp [waitMove]
        | relock b => simp only [waitMove, leaveRaw]; split <;> simp; omega
        | check j => have := h j rfl; simp only [waitMove]; split <;> simp; omega
        | returned r => simp [waitMove]) (by
      simp only [List.mem_append, List.mem_singleton, not_or]
      exact ⟨(fun h => by rcases hb _ h with h | h <;> cases h), (by decide)⟩)
  have := key n _ hi hc (Nat.le_trans (hl _ hu) hn)
  unfold WaitGives
  rw [show before ++ WaitMove.set :: List.replicate n .step = (before ++ [.set]) ++ List.replicate n .step from by simp, waitRun_append]
  exact this

/-- The result of the patched method is whether the event was set before the last look at it, also if the time was over before that. -/
theorem C122_late {v : PyVersion} {w : Nat} {ms : List WaitMove} (hc : .clear ∉ ms) {k : Nat} (hk : k ≤ 1) (hs : (waitRun v w ms).stage = .check k) :
    WaitGives v w (ms ++ [.step]) (some (decide (.set ∈ ms))) := by
  unfold WaitGives
  rw [waitRun_snoc]
  have hf := flag_run (v := v) (w := w) hc
  generalize waitRun v w ms = s at hs hf
  obtain ⟨flag, stage⟩ := s
  simp only at hs hf
  subst hs
  simp only [waitMove, if_pos hk]
  cases flag with
  | true => simp [hf.mp rfl]
  | false =>
    have : WaitMove.set ∉ ms := fun h => by simpa using hf.mpr h
    simp [this]

/-- Only Python 2 before 2.7 is patched, and there importing needs `threading._Event`. -/
theorem C122_versions (major minor imports : Nat) (has : Bool) :
    (compatWraps major minor has imports = none ↔ major = 2 ∧ minor < 7 ∧ has = false) ∧
    (0 < imports → ((∃ w, 0 < w ∧ compatWraps major minor has imports = some w) ↔ major = 2 ∧ minor < 7 ∧ has = true)) := by
  unfold compatWraps
  by_cases h : major = 2 ∧ minor < 7
  · rw [if_pos h]
    cases has <;> simp [h.1, h.2]
  · rw [if_neg h]
    refine ⟨⟨(fun h => by cases h), fun hh => absurd ⟨hh.1, hh.2.1⟩ h⟩, fun _ => ⟨(fun ⟨w, h1, h2⟩ => by cases h2; omega), fun hh => absurd ⟨hh.1, hh.2.1⟩ h⟩⟩

/-- An event that comes after the time is over, but before the thread looks: the versions differ. Python 3 says no, the others say yes. -/
theorem C122_same_violated : ¬ ∀ (ms : List WaitMove) (r r' : Option Bool), .clear ∉ ms → WaitGives .py3 0 ms r → WaitGives .py27 0 ms r' → r = r' := by
  intro h
  have := h [.step, .timeUp, .set, .step] (some false) (some true) (by decide) (by decide) (by decide)
  simp at this

/-- Were events cleared, the patched method could miss one that came in time, which Python 3 cannot. -/
theorem C122_cleared_violated : ¬ ∀ (before after : List WaitMove) (r : Option Bool), (∀ m ∈ before, m = .step) → WaitGives .py26 1 (before ++ .set :: after) r → r = some true := by
  intro h
  have := h [.step] [.step, .step, .clear, .step] (some false) (by decide) (by decide)
  simp at this

/-! ### Cases -/

/-- On 2.6, notified while waiting. -/
example : WaitGives (versionOf 2 6) 1 [.step, .set, .step, .step, .step] (some true) := by decide
/-- Nobody answers. -/
example : WaitGives (versionOf 2 6) 1 [.step, .timeUp, .step, .step] (some false) := by decide
example : WaitGives (versionOf 2 7) 0 [.step, .timeUp, .step] (some false) := by decide
/-- Without the patch the answer is lost. -/
example : WaitGives .py26 0 [.step, .set, .step, .step] none := by decide
example : compatWraps 2 6 true 1 = some 1 ∧ compatWraps 2 7 true 1 = some 0 ∧ compatWraps 3 4 false 1 = some 0 ∧ compatWraps 2 6 false 1 = none := by decide
example : endOfWrite none [py!"OK"] = .error (some [py!"OK"]) := rfl

end Gsm
