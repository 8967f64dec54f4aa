import Verif.Spec.Compat
/-! # Lemmas about waiting for an event -/
namespace Gsm


theorem waitRun_snoc (v : PyVersion) (w : Nat) (ms : List WaitMove) (m : WaitMove) : waitRun v w (ms ++ [m]) = waitMove v w (waitRun v w ms) m := by
  simp [waitRun]

theorem waitRun_append (v : PyVersion) (w : Nat) (ms ns : List WaitMove) : waitRun v w (ms ++ ns) = ns.foldl (waitMove v w) (waitRun v w ms) := by
  simp [waitRun]

/-- An invariant of all runs without `clear`. -/
theorem waitRun_inv {v : PyVersion} {w : Nat} {P : EventState → Prop} (h0 : P ⟨false, .entry⟩) (h : ∀ s m, m ≠ .clear → P s → P (waitMove v w s m)) :
    ∀ {ms : List WaitMove}, .clear ∉ ms → P (waitRun v w ms) := by
  have key : ∀ (ms : List WaitMove) s, .clear ∉ ms → P s → P (ms.foldl (waitMove v w) s) := by
    intro ms
    induction ms with
    | nil => intro s _ hs; exact hs
    | cons m ms ih =>
      intro s hm hs
      simp only [List.mem_cons, not_or] at hm
      exact ih _ hm.2 (h s m (Ne.symm hm.1) hs)
  intro ms hm
  exact key ms _ hm h0

theorem flag_run {v : PyVersion} {w : Nat} : ∀ {ms : List WaitMove}, .clear ∉ ms → ((waitRun v w ms).flag = true ↔ .set ∈ ms) := by
  have key : ∀ (ms : List WaitMove) s, .clear ∉ ms → ((ms.foldl (waitMove v w) s).flag = true ↔ s.flag = true ∨ .set ∈ ms) := by
    intro ms
    induction ms with
    | nil => intro s _; simp
    | cons m ms ih =>
      intro s hm
      simp only [List.mem_cons, not_or] at hm
      rw [List.foldl_cons, ih _ hm.2]
      cases m with
      | set => simp [waitMove]
      | clear => exact absurd rfl hm.1
      | step =>
        have : (waitMove v w s .step).flag = s.flag := by
          simp only [waitMove]; repeat' split <;> try rfl
        simp [this]
      | timeUp =>
        have : (waitMove v w s .timeUp).flag = s.flag := by
          simp only [waitMove]; repeat' split <;> try rfl
        simp [this]
  intro ms hm
  have := key ms ⟨false, .entry⟩ hm
  simp only [Bool.false_eq_true, false_or] at this
  exact this

/-- The notification has come in time. -/
def InTime (s : EventState) : Prop :=
  s.flag = true ∧ match s.stage with
    | .entry => True
    | .waiting b => b = true
    | .relock b => b = true
    | .check _ => True
    | .returned r => r = some true

theorem leave_inTime {v : PyVersion} {w : Nat} (hv : Answering v w) : InTime ⟨true, leaveRaw w (rawResult v true true)⟩ := by
  unfold leaveRaw
  split
  · next h =>
    cases v with
    | py26 => have := hv rfl; omega
    | py27 => exact ⟨rfl, rfl⟩
    | py3 => exact ⟨rfl, rfl⟩
  · exact ⟨rfl, trivial⟩

theorem inTime_move {v : PyVersion} {w : Nat} (hv : Answering v w) (s : EventState) (m : WaitMove) (hm : m ≠ .clear) (h : InTime s) : InTime (waitMove v w s m) := by
  obtain ⟨flag, stage⟩ := s
  obtain ⟨rfl, h⟩ := h
  cases m with
  | clear => exact absurd rfl hm
  | set => cases stage <;> simp_all [waitMove, InTime]
  | timeUp =>
    cases stage with
    | waiting b => simp only at h; subst h; exact ⟨rfl, rfl⟩
    | _ => exact ⟨rfl, h⟩
  | step =>
    cases stage with
    | entry => exact leave_inTime hv
    | waiting b => simp only at h; subst h; exact ⟨rfl, rfl⟩
    | relock b => simp only at h; subst h; exact leave_inTime hv
    | check n =>
      simp only [waitMove]
      split
      · exact ⟨rfl, rfl⟩
      · exact ⟨rfl, trivial⟩
    | returned r => exact ⟨rfl, h⟩

theorem inTime_moves {v : PyVersion} {w : Nat} (hv : Answering v w) : ∀ (ms : List WaitMove) (s : EventState), .clear ∉ ms → InTime s → InTime (ms.foldl (waitMove v w) s)
  | [], _, _, h => h
  | m :: ms, s, hm, h => by
    simp only [List.mem_cons, not_or] at hm
    exact inTime_moves hv ms _ hm.2 (inTime_move hv s m (Ne.symm hm.1) h)

/-- Nothing has come yet, and the time is not over. -/
def Expecting (s : EventState) : Prop := s.flag = false ∧ (s.stage = .entry ∨ s.stage = .waiting false)

theorem expecting_moves {v : PyVersion} {w : Nat} : ∀ (ms : List WaitMove) (s : EventState), (∀ m ∈ ms, m = .step) → Expecting s → Expecting (ms.foldl (waitMove v w) s)
  | [], _, _, h => h
  | m :: ms, ⟨flag, stage⟩, hm, ⟨h1, h2⟩ => by
    have : m = .step := hm m (by simp)
    subst this
    refine expecting_moves ms _ (fun x hx => hm x (by simp [hx])) ?_
    simp only at h1 h2
    subst h1
    rcases h2 with rfl | rfl
    · exact ⟨rfl, .inr rfl⟩
    · exact ⟨rfl, .inr rfl⟩

theorem set_inTime {v : PyVersion} {w : Nat} (hv : Answering v w) {before after : List WaitMove} (hb : ∀ m ∈ before, m = .step ∨ m = .set) (hc : .clear ∉ after) :
    InTime (waitRun v w (before ++ .set :: after)) := by
  have key : ∀ (ms : List WaitMove) (s : EventState), (∀ m ∈ ms, m = .step ∨ m = .set) → Expecting s ∨ InTime s → Expecting (ms.foldl (waitMove v w) s) ∨ InTime (ms.foldl (waitMove v w) s) := by
    intro ms
    induction ms with
    | nil => intro s _ h; exact h
    | cons m ms ih =>
      intro s hm h
      refine ih _ (fun x hx => hm x (by simp [hx])) ?_
      rcases h with h | h
      · rcases hm m (by simp) with rfl | rfl
        · exact .inl (expecting_moves [.step] s (by simp) h)
        · obtain ⟨flag, stage⟩ := s
          obtain ⟨h1, h2⟩ := h
          simp only at h1 h2
          rcases h2 with rfl | rfl
          · exact .inr ⟨rfl, trivial⟩
          · exact .inr ⟨rfl, rfl⟩
      · exact .inr (inTime_move hv s m (by rcases hm m (by simp) with rfl | rfl <;> decide) h)
  rw [waitRun_append, List.foldl_cons]
  refine inTime_moves hv after _ hc ?_
  rcases key before ⟨false, .entry⟩ hb (.inl ⟨rfl, .inl rfl⟩) with h | h
  · rw [show before.foldl (waitMove v w) ⟨false, .entry⟩ = waitRun v w before from rfl] at h
    generalize waitRun v w before = s at h
    obtain ⟨flag, stage⟩ := s
    obtain ⟨h1, h2⟩ := h
    simp only at h1 h2
    rcases h2 with rfl | rfl
    · exact ⟨rfl, trivial⟩
    · exact ⟨rfl, rfl⟩
  · exact inTime_move hv _ .set (by decide) h

/-- What is still to be done by a thread that was notified. -/
def stepsLeft (w : Nat) : WaitStage → Nat
  | .entry => w + 3
  | .waiting _ => w + 2
  | .relock _ => w + 1
  | .check n => n
  | .returned _ => 0

end Gsm
