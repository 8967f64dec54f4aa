import Verif.Lemmas.Serial
/-! # Properties C27–C31: the serial link -/
namespace Gsm
open Spec

/-! ### C27: framing -/

/-- The characters received in a run (none after a fatal error of the port). -/
def received : List SEvent → PyStr
  | [] => []
  | .rx c _ :: es => c :: received es
  | .fail :: _ => []
  | _ :: es => received es

/-- The prompts waited for in a run. -/
def promptsOf (es : List SEvent) (p : PyStr) : Prop := p ≠ [] ∧ .start (some p) ∈ es

theorem expectOf_some {e : Option PyStr} {p} (h : expectOf e = some p) : e = some p ∧ p ≠ [] := by
  cases e with
  | none => cases h
  | some e =>
    cases e with
    | nil => cases h
    | cons c s => cases h; exact ⟨rfl, by simp⟩

theorem srun_dead {s : Comms} (h : s.alive = false) (es : List SEvent) :
    (srun es s).handed = s.handed ∧ (srun es s).rxBuffer = s.rxBuffer := by
  induction es generalizing s with
  | nil => exact ⟨rfl, rfl⟩
  | cons e es ih =>
    have : (sstep s e).alive = false ∧ (sstep s e).handed = s.handed ∧ (sstep s e).rxBuffer = s.rxBuffer := by
      cases e with
      | rx c m => simp [sstep, h]
      | start x => simp only [sstep]; split <;> exact ⟨h, rfl, rfl⟩
      | finish => simp only [sstep]; split <;> exact ⟨h, rfl, rfl⟩
      | expire => simp only [sstep]; split <;> exact ⟨h, rfl, rfl⟩
      | fail => exact ⟨rfl, rfl, rfl⟩
    obtain ⟨h1, h2, h3⟩ := this
    obtain ⟨g1, g2⟩ := ih h1
    exact ⟨g1.trans h2, g2.trans h3⟩

theorem framing_from (P : PyStr → Prop) (es : List SEvent) : ∀ (s : Comms) (t : PyStr), s.alive = true →
    (∀ q, s.expect = some q → P q) → (∀ q, promptsOf es q → P q) →
    Framed P t s.handed s.rxBuffer →
    Framed P (t ++ received es) (srun es s).handed (srun es s).rxBuffer := by
  induction es with
  | nil => intro s t _ _ _ h; simpa [received, srun] using h
  | cons e es ih =>
    intro s t ha hx hp h
    have hp' : ∀ q, promptsOf es q → P q := fun q hq => hp q ⟨hq.1, List.mem_cons_of_mem _ hq.2⟩
    cases e with
    | rx c m =>
      have hstep : srun (.rx c m :: es) s = srun es (readChar s c m) := by
        simp [srun, sstep, ha]
      rw [hstep, received]
      have goal : (readChar s c m).alive = true ∧ (readChar s c m).expect = s.expect ∧
          Framed P (t ++ [c]) (readChar s c m).handed (readChar s c m).rxBuffer := by
        have hn := framed_rest h
        rcases readChar_cases s c m with ⟨l, h1, h2, h3⟩ | ⟨h1, h3⟩ | ⟨h1, q, hq, h2, h3⟩ | ⟨h1, h2, h3⟩
        · rw [h3]
          refine ⟨by simpa using ha, by simp, ?_⟩
          have hb : ∃ y, l ++ y = s.rxBuffer := by
            refine ⟨[13], ?_⟩
            have : s.rxBuffer ++ [c] = (l ++ [13]) ++ [10] := by simpa using h1
            exact (List.append_inj_left' this rfl).symm
          obtain ⟨y, hy⟩ := hb
          have hl : NoEol l := noEol_left (hy ▸ hn)
          have := framed_line h h1 hl
          rw [if_neg h2] at this
          simpa using this
        · rw [h3]
          refine ⟨ha, rfl, ?_⟩
          have := framed_line (l := []) h (by simpa using h1) noEol_nil
          simpa using this
        · rw [h3]
          refine ⟨by simpa using ha, by simp, ?_⟩
          simpa using framed_prompt h (hx q hq) h2 (noEol_snoc hn h1)
        · rw [h3]
          exact ⟨ha, rfl, framed_keep h (noEol_snoc hn h1)⟩
      obtain ⟨g1, g2, g3⟩ := goal
      have := ih (readChar s c m) (t ++ [c]) g1 (fun q hq => hx q (g2 ▸ hq)) hp' g3
      simpa using this
    | start x =>
      simp only [received]
      refine ih (sstep s (.start x)) t ?_ ?_ hp' ?_
      · simp only [sstep]; split <;> exact ha
      · intro q
        simp only [sstep]
        split
        · exact hx q
        · intro hq
          simp only at hq
          cases hxx : expectOf x with
          | none => rw [hxx] at hq; exact hx q hq
          | some p =>
            rw [hxx] at hq
            simp only [Option.or_some, Option.some_or, Option.some.injEq] at hq
            subst hq
            obtain ⟨rfl, hne⟩ := expectOf_some hxx
            exact hp _ ⟨hne, by simp⟩
      · simp only [sstep]; split <;> exact h
    | finish =>
      simp only [received]
      refine ih (sstep s .finish) t ?_ ?_ hp' ?_
      · simp only [sstep]; split <;> exact ha
      · intro q; simp only [sstep]; split
        · intro hq; cases hq
        · exact hx q
      · simp only [sstep]; split <;> exact h
    | expire =>
      simp only [received]
      refine ih (sstep s .expire) t ?_ ?_ hp' ?_
      · simp only [sstep]; split <;> exact ha
      · intro q; simp only [sstep]; split
        · intro hq; cases hq
        · exact hx q
      · simp only [sstep]; split <;> exact h
    | fail =>
      simp only [received, List.append_nil]
      obtain ⟨g1, g2⟩ := srun_dead (s := sstep s .fail) rfl es
      have e : srun (.fail :: es) s = srun es (sstep s .fail) := rfl
      rw [e, g1, g2]
      exact h

/-- C27: in every run, the received characters are exactly the lines handed up, each with its end of
line or ended by a prompt that was waited for, plus empty lines, plus the incomplete rest, which is
retained. -/
theorem C27_framing (es : List SEvent) :
    Framed (promptsOf es) (received es) (srun es).handed (srun es).rxBuffer := by
  have := framing_from (promptsOf es) es {} [] rfl (by intro q hq; cases hq) (fun q hq => hq) (.rest noEol_nil)
  simpa using this

/-- Without prompts there is only one way to divide a stream into lines. -/
theorem framed_unique {s ls ls' r r'} (h : Framed (fun _ => False) s ls r) (h' : Framed (fun _ => False) s ls' r') :
    ls = ls' ∧ r = r' := by
  -- the first end of line is at the same place
  have first : ∀ {l l' t t' : List Nat}, NoEol l → NoEol l' → l ++ 13 :: 10 :: t = l' ++ 13 :: 10 :: t' →
      l = l' ∧ t = t' := by
    intro l l' t t' h1 h2 e
    rcases List.append_eq_append_iff.1 e with ⟨a, e1, e2⟩ | ⟨a, e1, e2⟩
    · match a, e2 with
      | [], e2 => simp at e1 e2; exact ⟨e1.symm, e2⟩
      | [x], e2 => simp at e2
      | x :: y :: a, e2 =>
        simp at e2
        obtain ⟨rfl, rfl, _⟩ := e2
        exact absurd ⟨l, a, by rw [e1]; simp⟩ h2
    · match a, e2 with
      | [], e2 => simp at e1 e2; exact ⟨e1, e2.symm⟩
      | [x], e2 => simp at e2
      | x :: y :: a, e2 =>
        simp at e2
        obtain ⟨rfl, rfl, _⟩ := e2
        exact absurd ⟨l', a, by rw [e1]; simp⟩ h1
  induction h generalizing ls' with
  | rest hr =>
    cases h' with
    | rest _ => exact ⟨rfl, rfl⟩
    | empty _ => exact absurd ⟨[], _, rfl⟩ hr
    | @line l s _ _ _ _ _ => exact absurd ⟨l, s, by simp⟩ hr
    | prompt hp => exact hp.elim
  | @empty s ls r _ ih =>
    generalize hs : 13 :: 10 :: s = x at h'
    cases h' with
    | rest hr => exact absurd ⟨[], s, hs⟩ hr
    | empty h' => cases hs; exact ih h'
    | line h1 h2 _ =>
      have := (first noEol_nil h2 (by simpa using hs)).1
      exact absurd this.symm h1
    | prompt hp => exact hp.elim
  | @line l s ls r h1 h2 _ ih =>
    generalize hs : l ++ 13 :: 10 :: s = x at h'
    cases h' with
    | rest hr => exact absurd ⟨l, s, by rw [← hs]; simp⟩ hr
    | empty h' =>
      have := (first h2 noEol_nil (by simpa using hs)).1
      exact absurd this h1
    | line g1 g2 h' =>
      obtain ⟨rfl, rfl⟩ := first h2 g2 hs
      obtain ⟨rfl, rfl⟩ := ih h'
      exact ⟨rfl, rfl⟩
    | prompt hp => exact hp.elim
  | prompt hp => exact hp.elim

/-- C27: when no prompt is waited for, the lines handed up are exactly *the* lines of the stream:
any other division of the received characters into lines is the same. -/
theorem C27_exact (es : List SEvent) (hp : ∀ p, .start (some p) ∈ es → p = []) {ls : List PyStr} {r : PyStr}
    (h : Framed (fun _ => False) (received es) ls r) : (srun es).handed = ls ∧ (srun es).rxBuffer = r :=
  framed_unique (framed_mono (fun p hp' => hp'.1 (hp p hp'.2)) (C27_framing es)) h

/-- C27: in particular the lines handed up depend on the received characters alone, not on timing,
commands, time-outs or anything else in the run. -/
theorem C27_timing_irrelevant (es es' : List SEvent) (hp : ∀ p, .start (some p) ∈ es → p = [])
    (hp' : ∀ p, .start (some p) ∈ es' → p = []) (h : received es = received es') :
    (srun es).handed = (srun es').handed ∧ (srun es).rxBuffer = (srun es').rxBuffer :=
  C27_exact es hp (h ▸ framed_mono (fun p hq => hq.1 (hp' p hq.2)) (C27_framing es'))

example : Framed (fun _ => False) (py!"\r\n+CSQ: 1" ++ py!"\r\n\r\nOK\r\npart") [py!"+CSQ: 1", py!"OK"] py!"part" :=
  .empty (.line (l := py!"+CSQ: 1") (by decide) (by unfold NoEol; decide)
    (.empty (.line (l := py!"OK") (by decide) (by unfold NoEol; decide) (.rest (by unfold NoEol; decide)))))

/-! ### C29: nothing lost, nothing twice -/

/-- The lines of a finished `write`. -/
def Outcome.lines : Outcome → List PyStr
  | .returned ls => ls
  | .timeout (some ls) => ls
  | .timeout none => []

/-- Lines that went into responses: of finished calls, then of the pending one. -/
def responseLines (s : Comms) : List PyStr :=
  (s.outcomes.map Outcome.lines).flatten ++ (match s.pending with | some p => p.response | none => [])

/-- Lines that went into notifications: delivered, then collected. -/
def notificationLines (s : Comms) : List PyStr := s.notified.flatten ++ s.notification

theorem shuffle_right {α} (b : List α) : Shuffle [] b b := by
  induction b with
  | nil => exact .nil
  | cons x b ih => exact .right ih

theorem shuffle_snoc_left {α} {a b c : List α} (h : Shuffle a b c) (x : α) : Shuffle (a ++ [x]) b (c ++ [x]) := by
  induction h with
  | nil => exact .left .nil
  | left _ ih => exact .left ih
  | right _ ih => exact .right ih

theorem shuffle_snoc_right {α} {a b c : List α} (h : Shuffle a b c) (x : α) : Shuffle a (b ++ [x]) (c ++ [x]) := by
  induction h with
  | nil => exact .right .nil
  | left _ ih => exact .left ih
  | right _ ih => exact .right ih

theorem shuffle_handle {s : Comms} (h : Shuffle (responseLines s) (notificationLines s) s.handed) (l ct m) :
    Shuffle (responseLines (handleLineRead s l ct m)) (notificationLines (handleLineRead s l ct m))
      (handleLineRead s l ct m).handed := by
  rw [handleLineRead_handed]
  unfold handleLineRead
  simp only
  split
  · next r hp =>
    have e1 : ∀ p, responseLines { s with handed := s.handed ++ [l], pending := some ⟨r ++ [l], p⟩ } =
        responseLines s ++ [l] := by
      intro p; simp [responseLines, hp]
    rw [e1]
    exact shuffle_snoc_left h l
  · next hp =>
    split
    · have : notificationLines { s with handed := s.handed ++ [l], notification := s.notification ++ [l] } =
        notificationLines s ++ [l] := by simp [notificationLines]
      rw [this]
      exact shuffle_snoc_right h l
    · have : notificationLines { s with handed := s.handed ++ [l], notified := s.notified ++ [s.notification ++ [l]], notification := [] } =
        notificationLines s ++ [l] := by simp [notificationLines]
      rw [this]
      exact shuffle_snoc_right h l

/-- C29: at any moment the lines handed up so far are an interleaving of those placed in responses and
those placed in notifications: each line is in exactly one place, and the order is kept. -/
theorem C29_no_loss_no_duplicate (es : List SEvent) :
    Shuffle (responseLines (srun es)) (notificationLines (srun es)) (srun es).handed := by
  have : ∀ s : Comms, Shuffle (responseLines s) (notificationLines s) s.handed →
      Shuffle (responseLines (srun es s)) (notificationLines (srun es s)) (srun es s).handed := by
    induction es with
    | nil => intro s h; exact h
    | cons e es ih =>
      intro s h
      refine ih (sstep s e) ?_
      cases e with
      | rx c m =>
        simp only [sstep]
        split
        · rcases readChar_cases s c m with ⟨l, _, _, h3⟩ | ⟨_, h3⟩ | ⟨_, q, _, _, h3⟩ | ⟨_, _, h3⟩ <;> rw [h3]
          · exact shuffle_handle (s := { s with rxBuffer := [] }) h l true m
          · exact h
          · exact shuffle_handle (s := { s with rxBuffer := [] }) h _ false m
          · exact h
        · exact h
      | start x =>
        simp only [sstep]
        split
        · exact h
        · next hp =>
          have : responseLines { s with pending := some ⟨[], false⟩, expect := (expectOf x).or s.expect } = responseLines s := by
            simp [responseLines, hp]
          rw [this]; exact h
      | finish =>
        simp only [sstep]
        split
        · next r hp =>
          have : responseLines { s with pending := none, expect := none, outcomes := s.outcomes ++ [.returned r] } = responseLines s := by
            simp [responseLines, hp, Outcome.lines]
          rw [this]; exact h
        · exact h
      | expire =>
        simp only [sstep]
        split
        · next r b hp =>
          have : responseLines { s with pending := none, expect := none, outcomes := s.outcomes ++ [.timeout (if r.length > 0 then some r else none)] } = responseLines s := by
            cases r <;> simp [responseLines, hp, Outcome.lines]
          rw [this]; exact h
        · exact h
      | fail => exact h
  exact this {} .nil

/-- C29: in numbers. -/
theorem C29_count (es : List SEvent) (l : PyStr) :
    (srun es).handed.count l = (responseLines (srun es)).count l + (notificationLines (srun es)).count l := by
  have : ∀ {a b c : List PyStr}, Shuffle a b c → c.count l = a.count l + b.count l := by
    intro a b c h
    induction h with
    | nil => rfl
    | left _ ih => simp only [List.count_cons, ih]; omega
    | right _ ih => simp only [List.count_cons, ih]; omega
  exact this (C29_no_loss_no_duplicate es)

/-! ### C28, C30: the response of a command -/

/-- Receiving characters, with arbitrary timing. -/
def rxs (cs : List (Nat × Bool)) : List SEvent := cs.map fun x => .rx x.1 x.2

theorem handleLineRead_notify {s : Comms} (h : ∀ r, s.pending ≠ some ⟨r, false⟩) (l ct m) :
    (handleLineRead s l ct m).pending = s.pending ∧
    notificationLines (handleLineRead s l ct m) = notificationLines s ++ [l] := by
  unfold handleLineRead
  dsimp only
  split
  · rename_i r hr
    exact absurd hr (h _)
  · split <;> simp [notificationLines]

/-- When no response is awaited any more, every line goes to the notifications. -/
theorem after_final : ∀ (cs : List (Nat × Bool)) (s : Comms), (∀ r, s.pending ≠ some ⟨r, false⟩) →
    ∃ new, (srun (rxs cs) s).handed = s.handed ++ new ∧ (srun (rxs cs) s).outcomes = s.outcomes ∧
      (srun (rxs cs) s).expect = s.expect ∧ (srun (rxs cs) s).pending = s.pending ∧
      notificationLines (srun (rxs cs) s) = notificationLines s ++ new := by
  intro cs
  induction cs with
  | nil => intro s _; exact ⟨[], by simp [rxs, srun]⟩
  | cons x cs ih =>
    intro s h2
    have hstep : ∃ n, (sstep s (.rx x.1 x.2)).handed = s.handed ++ n ∧ (sstep s (.rx x.1 x.2)).outcomes = s.outcomes ∧
        (sstep s (.rx x.1 x.2)).expect = s.expect ∧ (sstep s (.rx x.1 x.2)).pending = s.pending ∧
        notificationLines (sstep s (.rx x.1 x.2)) = notificationLines s ++ n := by
      simp only [sstep]
      split
      · rcases readChar_cases s x.1 x.2 with ⟨l, _, _, h3⟩ | ⟨_, h3⟩ | ⟨_, q, hq, _, h3⟩ | ⟨_, _, h3⟩
        · rw [h3]
          obtain ⟨k1, k2⟩ := handleLineRead_notify (s := { s with rxBuffer := [] }) h2 l true x.2
          exact ⟨[l], by simp, by simp, by simp, k1, k2⟩
        · rw [h3]; exact ⟨[], by simp [notificationLines]⟩
        · rw [h3]
          obtain ⟨k1, k2⟩ := handleLineRead_notify (s := { s with rxBuffer := [] }) h2 (s.rxBuffer ++ [x.1]) false x.2
          exact ⟨[s.rxBuffer ++ [x.1]], by simp, by simp, by simp, k1, k2⟩
        · rw [h3]; exact ⟨[], by simp [notificationLines]⟩
      · exact ⟨[], by simp⟩
    obtain ⟨n, e1, e2, e3, e4, e5⟩ := hstep
    obtain ⟨new, f1, f2, f3, f4, f5⟩ := ih (sstep s (.rx x.1 x.2)) (by rw [e4]; exact h2)
    refine ⟨n ++ new, ?_, f2.trans e2, f3.trans e3, f4.trans e4, ?_⟩
    · rw [show srun (rxs (x :: cs)) s = srun (rxs cs) (sstep s (.rx x.1 x.2)) from rfl, f1, e1, List.append_assoc]
    · rw [show srun (rxs (x :: cs)) s = srun (rxs cs) (sstep s (.rx x.1 x.2)) from rfl, f5, e5, List.append_assoc]

/-- While characters arrive, the lines they complete are handed up; without a prompt to wait for each
of them is treated in turn by `handleLineRead`. -/
theorem collect {cs : List (Nat × Bool)} : ∀ {s : Comms} {old : List PyStr}, s.expect = none →
    s.pending = some ⟨old, false⟩ →
    ∃ new, (srun (rxs cs) s).handed = s.handed ++ new ∧ (srun (rxs cs) s).outcomes = s.outcomes ∧
      (srun (rxs cs) s).expect = none ∧
      ((∀ l ∈ new, ¬ IsFinal l) → (srun (rxs cs) s).pending = some ⟨old ++ new, false⟩ ∧
        notificationLines (srun (rxs cs) s) = notificationLines s) ∧
      (∀ pre t post, new = pre ++ t :: post → (∀ l ∈ pre, ¬ IsFinal l) → IsFinal t →
        (srun (rxs cs) s).pending = some ⟨old ++ pre ++ [t], true⟩ ∧
        notificationLines (srun (rxs cs) s) = notificationLines s ++ post) := by
  induction cs with
  | nil =>
    intro s old h1 h2
    refine ⟨[], by simp [rxs, srun, h1, h2]⟩
  | cons x cs ih =>
    intro s old h1 h2
    have e : srun (rxs (x :: cs)) s = srun (rxs cs) (sstep s (.rx x.1 x.2)) := rfl
    rw [e]
    have hsame : ∀ s' : Comms, sstep s (.rx x.1 x.2) = s' → s'.handed = s.handed → s'.outcomes = s.outcomes →
        s'.expect = none → s'.pending = some ⟨old, false⟩ → notificationLines s' = notificationLines s →
        ∃ new, (srun (rxs cs) (sstep s (.rx x.1 x.2))).handed = s.handed ++ new ∧
          (srun (rxs cs) (sstep s (.rx x.1 x.2))).outcomes = s.outcomes ∧
          (srun (rxs cs) (sstep s (.rx x.1 x.2))).expect = none ∧
          ((∀ l ∈ new, ¬ IsFinal l) → (srun (rxs cs) (sstep s (.rx x.1 x.2))).pending = some ⟨old ++ new, false⟩ ∧
            notificationLines (srun (rxs cs) (sstep s (.rx x.1 x.2))) = notificationLines s) ∧
          (∀ pre t post, new = pre ++ t :: post → (∀ l ∈ pre, ¬ IsFinal l) → IsFinal t →
            (srun (rxs cs) (sstep s (.rx x.1 x.2))).pending = some ⟨old ++ pre ++ [t], true⟩ ∧
            notificationLines (srun (rxs cs) (sstep s (.rx x.1 x.2))) = notificationLines s ++ post) := by
      rintro s' rfl k1 k2 k3 k4 k5
      obtain ⟨new, f1, f2, f3, f4, f5⟩ := ih k3 k4
      exact ⟨new, by rw [f1, k1], by rw [f2, k2], f3, by rw [← k5]; exact f4, by rw [← k5]; exact f5⟩
    by_cases ha : s.alive = true
    · have hrx : sstep s (.rx x.1 x.2) = readChar s x.1 x.2 := by simp [sstep, ha]
      rcases readChar_cases s x.1 x.2 with ⟨l, _, _, h3⟩ | ⟨_, h3⟩ | ⟨_, q, hq, _, h3⟩ | ⟨_, _, h3⟩
      · -- a line
        have hs' : sstep s (.rx x.1 x.2) = { s with rxBuffer := [], handed := s.handed ++ [l], pending := some ⟨old ++ [l], isResponseTerm l⟩ } := by
          rw [hrx, h3]
          simp [handleLineRead, h2]
        rw [hs']
        by_cases hl : isResponseTerm l = true
        · rw [hl]
          obtain ⟨new, f1, f2, f3, f4, f5⟩ := after_final cs { s with rxBuffer := [], handed := s.handed ++ [l], pending := some ⟨old ++ [l], true⟩ }
            (by intro r hr; simp at hr)
          refine ⟨l :: new, by rw [f1]; simp, f2, f3.trans h1, ?_, ?_⟩
          · intro hall
            exact absurd (isResponseTerm_iff.1 hl) (hall l (by simp))
          · intro pre t post hnew hpre ht
            cases pre with
            | nil =>
              simp only [List.nil_append, List.cons.injEq] at hnew
              obtain ⟨rfl, rfl⟩ := hnew
              exact ⟨by rw [f4]; simp, f5⟩
            | cons b pre =>
              simp only [List.cons_append, List.cons.injEq] at hnew
              exact absurd (isResponseTerm_iff.1 hl) (hnew.1 ▸ hpre b (by simp))
        · have hl' : ¬ IsFinal l := fun h => hl (isResponseTerm_iff.2 h)
          rw [Bool.not_eq_true] at hl
          rw [hl]
          obtain ⟨new, f1, f2, f3, f4, f5⟩ := ih (s := { s with rxBuffer := [], handed := s.handed ++ [l], pending := some ⟨old ++ [l], false⟩ })
            (old := old ++ [l]) h1 rfl
          refine ⟨l :: new, by rw [f1]; simp, f2, f3, ?_, ?_⟩
          · intro hall
            obtain ⟨g1, g2⟩ := f4 (fun a ha => hall a (by simp [ha]))
            exact ⟨by rw [g1]; simp, g2⟩
          · intro pre t post hnew hpre ht
            cases pre with
            | nil =>
              simp only [List.nil_append, List.cons.injEq] at hnew
              exact absurd (hnew.1 ▸ ht) hl'
            | cons b pre =>
              simp only [List.cons_append, List.cons.injEq] at hnew
              obtain ⟨rfl, hnew⟩ := hnew
              obtain ⟨g1, g2⟩ := f5 pre t post hnew (fun a ha => hpre a (by simp [ha])) ht
              exact ⟨by rw [g1]; simp, g2⟩
      · exact hsame _ (hrx.trans h3) rfl rfl h1 h2 rfl
      · rw [h1] at hq; cases hq
      · exact hsame _ (hrx.trans h3) rfl rfl h1 h2 rfl
    · have : sstep s (.rx x.1 x.2) = s := by simp [sstep, ha]
      exact hsame _ this rfl rfl h1 h2 rfl

/-- A pending prompt is forgotten when the command is over. -/
theorem idle_expect (es : List SEvent) : (srun es).pending = none → (srun es).expect = none := by
  have key : ∀ s : Comms, (s.pending = none → s.expect = none) → ((srun es s).pending = none → (srun es s).expect = none) := by
    induction es with
    | nil => intro s h; exact h
    | cons e es ih =>
      intro s h
      refine ih (sstep s e) ?_
      have hh : ∀ (s : Comms) l ct m, (handleLineRead s l ct m).pending = none → s.pending = none := by
        intro s l ct m
        unfold handleLineRead
        simp only
        split
        · intro h; cases h
        · split <;> exact id
      cases e with
      | rx c m =>
        simp only [sstep]
        split
        · rcases readChar_cases s c m with ⟨l, _, _, h3⟩ | ⟨_, h3⟩ | ⟨_, q, _, _, h3⟩ | ⟨_, _, h3⟩ <;> rw [h3]
          · intro hp; simpa using h (hh { s with rxBuffer := [] } _ _ _ hp)
          · exact h
          · intro hp; simpa using h (hh { s with rxBuffer := [] } _ _ _ hp)
          · exact h
        · exact h
      | start x => simp only [sstep]; split
                   · exact h
                   · intro hp; cases hp
      | finish => simp only [sstep]; split
                  · intro _; rfl
                  · exact h
      | expire => simp only [sstep]; split
                  · intro _; rfl
                  · exact h
      | fail => exact h
  exact key {} (fun _ => rfl)

theorem srun_append (a b : List SEvent) (s : Comms) : srun (a ++ b) s = srun b (srun a s) := by
  simp [srun]

/-- C28: after any history `es` that leaves no command pending, a command is sent and characters
arrive in any timing. If the lines completed since (`new`) contain a final result code and `t` is
the first one, then `write` returns exactly the lines up to and including `t`, and the lines after it
have gone to the notifications. -/
theorem C28_response_exact (es : List SEvent) (cs : List (Nat × Bool)) (pre : List PyStr) (t : PyStr) (post : List PyStr)
    (hidle : (srun es).pending = none)
    (hnew : (srun (es ++ .start none :: rxs cs)).handed = (srun es).handed ++ (pre ++ t :: post))
    (hpre : ∀ l ∈ pre, ¬ IsFinal l) (ht : IsFinal t) :
    (srun (es ++ .start none :: rxs cs ++ [.finish])).outcomes = (srun es).outcomes ++ [.returned (pre ++ [t])] ∧
    notificationLines (srun (es ++ .start none :: rxs cs ++ [.finish])) = notificationLines (srun es) ++ post := by
  have hx := idle_expect es hidle
  have e1 : srun (es ++ .start none :: rxs cs) = srun (rxs cs) { srun es with pending := some ⟨[], false⟩, expect := none } := by
    rw [srun_append]
    show srun (rxs cs) (sstep (srun es) (.start none)) = _
    simp [sstep, hidle, expectOf, hx]
  obtain ⟨new, f1, f2, _, _, f5⟩ := collect (cs := cs) (s := { srun es with pending := some ⟨[], false⟩, expect := none }) rfl rfl
  rw [e1, f1] at hnew
  have hn : new = pre ++ t :: post := List.append_cancel_left hnew
  obtain ⟨g1, g2⟩ := f5 pre t post hn hpre ht
  rw [srun_append, e1]
  generalize srun (rxs cs) { srun es with pending := some ⟨[], false⟩, expect := none } = s' at *
  simp only [srun, List.foldl, sstep, g1]
  refine ⟨?_, ?_⟩
  · simp [f2, srun]
  · simpa [notificationLines, srun] using g2

/-- C28: until the first final result code has arrived `write` cannot return. -/
theorem C28_waits (es : List SEvent) (cs : List (Nat × Bool)) (new : List PyStr)
    (hidle : (srun es).pending = none)
    (hnew : (srun (es ++ .start none :: rxs cs)).handed = (srun es).handed ++ new)
    (hfin : ∀ l ∈ new, ¬ IsFinal l) :
    srun (es ++ .start none :: rxs cs ++ [.finish]) = srun (es ++ .start none :: rxs cs) ∧
    (srun (es ++ .start none :: rxs cs)).pending = some ⟨new, false⟩ := by
  have hx := idle_expect es hidle
  have e1 : srun (es ++ .start none :: rxs cs) = srun (rxs cs) { srun es with pending := some ⟨[], false⟩, expect := none } := by
    rw [srun_append]
    show srun (rxs cs) (sstep (srun es) (.start none)) = _
    simp [sstep, hidle, expectOf, hx]
  obtain ⟨new', f1, _, _, f4, _⟩ := collect (cs := cs) (s := { srun es with pending := some ⟨[], false⟩, expect := none }) rfl rfl
  rw [e1, f1] at hnew
  have hn : new' = new := List.append_cancel_left hnew
  subst hn
  obtain ⟨g1, _⟩ := f4 hfin
  rw [srun_append, e1]
  refine ⟨?_, by simpa using g1⟩
  simp [srun, sstep] at g1 ⊢
  rw [g1]

/-- C28: what counts as a final result code. -/
theorem C28_final_iff (line : PyStr) : isResponseTerm line = true ↔ IsFinal line := isResponseTerm_iff

/-- C30: after any history that leaves no command pending, a command is sent and characters arrive
that complete the lines `new`, none of them final; then the wait times out. The exception carries
exactly `new` (None if there are none); lines completed by later characters go to the notifications. -/
theorem C30_timeout (es : List SEvent) (cs cs' : List (Nat × Bool)) (new : List PyStr)
    (hidle : (srun es).pending = none)
    (hnew : (srun (es ++ .start none :: rxs cs)).handed = (srun es).handed ++ new)
    (hfin : ∀ l ∈ new, ¬ IsFinal l) :
    (srun (es ++ .start none :: rxs cs ++ .expire :: rxs cs')).outcomes =
      (srun es).outcomes ++ [.timeout (if new = [] then none else some new)] ∧
    (srun (es ++ .start none :: rxs cs ++ .expire :: rxs cs')).pending = none ∧
    ∃ later, (srun (es ++ .start none :: rxs cs ++ .expire :: rxs cs')).handed = (srun es).handed ++ new ++ later ∧
      notificationLines (srun (es ++ .start none :: rxs cs ++ .expire :: rxs cs')) = notificationLines (srun es) ++ later := by
  obtain ⟨_, hp⟩ := C28_waits es cs new hidle hnew hfin
  have hx := idle_expect es hidle
  have e1 : srun (es ++ .start none :: rxs cs) = srun (rxs cs) { srun es with pending := some ⟨[], false⟩, expect := none } := by
    rw [srun_append]
    show srun (rxs cs) (sstep (srun es) (.start none)) = _
    simp [sstep, hidle, expectOf, hx]
  obtain ⟨new', f1, f2, f3, f4, _⟩ := collect (cs := cs) (s := { srun es with pending := some ⟨[], false⟩, expect := none }) rfl rfl
  have hn : new' = new := by rw [e1, f1] at hnew; exact List.append_cancel_left hnew
  subst hn
  obtain ⟨_, g2⟩ := f4 hfin
  rw [srun_append]
  rw [← e1] at f1 f2 f3 g2
  generalize srun (es ++ .start none :: rxs cs) = s1 at *
  have e2 : sstep s1 .expire =
      { s1 with pending := none, expect := none, outcomes := s1.outcomes ++ [.timeout (if new' = [] then none else some new')] } := by
    simp only [sstep, hp]
    cases new' <;> simp
  obtain ⟨later, k1, k2, _, k3, k4⟩ := after_final cs' (sstep s1 .expire) (by rw [e2]; simp)
  rw [show (sstep s1 .expire).pending = none by rw [e2]] at k3
  refine ⟨?_, k3, later, ?_, ?_⟩
  · show (srun (rxs cs') (sstep s1 .expire)).outcomes = _
    rw [k2, e2]
    show s1.outcomes ++ _ = _
    rw [f2]
  · show (srun (rxs cs') (sstep s1 .expire)).handed = _
    rw [k1, e2]
    show s1.handed ++ later = _
    rw [f1]
  · show notificationLines (srun (rxs cs') (sstep s1 .expire)) = _
    rw [k4, e2]
    show notificationLines s1 ++ later = _
    rw [g2]
    rfl

/-! ### C31: prompts -/

/-- What happens while a prompt `p` is waited for. -/
theorem collect_prompt {p : PyStr} : ∀ (cs : List (Nat × Bool)) (s : Comms) (old : List PyStr), s.alive = true →
    s.expect = some p → s.pending = some ⟨old, false⟩ →
    ∃ new, (srun (rxs cs) s).handed = s.handed ++ new ∧ (srun (rxs cs) s).outcomes = s.outcomes ∧
      (srun (rxs cs) s).expect = some p ∧ (srun (rxs cs) s).alive = true ∧
      (((srun (rxs cs) s).pending = some ⟨old ++ new, false⟩ ∧ (∀ l ∈ new, ¬ IsFinal l) ∧
          notificationLines (srun (rxs cs) s) = notificationLines s ∧
          ∃ x, s.rxBuffer ++ cs.map Prod.fst = x ++ (srun (rxs cs) s).rxBuffer ∧ (x = [] ∨ [10] <:+ x)) ∨
       (∃ pre l post, new = pre ++ l :: post ∧ (srun (rxs cs) s).pending = some ⟨old ++ pre ++ [l], true⟩ ∧
          (∀ x ∈ pre, ¬ IsFinal x) ∧ (IsFinal l ∨ p <:+ l) ∧
          notificationLines (srun (rxs cs) s) = notificationLines s ++ post)) := by
  have alive' : ∀ (cs : List (Nat × Bool)) (s : Comms), s.alive = true → (srun (rxs cs) s).alive = true := by
    intro cs
    induction cs with
    | nil => intro s h; exact h
    | cons x cs ih =>
      intro s h
      refine ih _ ?_
      simp only [sstep, h, if_true]
      rcases readChar_cases s x.1 x.2 with ⟨l, _, _, h3⟩ | ⟨_, h3⟩ | ⟨_, q, hq, _, h3⟩ | ⟨_, _, h3⟩ <;> rw [h3] <;> simp [h]
  intro cs
  induction cs with
  | nil =>
    intro s old h0 h1 h2
    exact ⟨[], by simp [rxs, srun], rfl, h1, h0, .inl ⟨by simp [rxs, srun, h2], by simp, rfl, [], by simp [rxs, srun], .inl rfl⟩⟩
  | cons x cs ih =>
    intro s old h0 h1 h2
    have e : srun (rxs (x :: cs)) s = srun (rxs cs) (sstep s (.rx x.1 x.2)) := rfl
    have hrx : sstep s (.rx x.1 x.2) = readChar s x.1 x.2 := by simp [sstep, h0]
    rw [e, hrx]
    -- the response is complete
    have done : ∀ l, (IsFinal l ∨ p <:+ l) → readChar s x.1 x.2 = { s with rxBuffer := [], handed := s.handed ++ [l], pending := some ⟨old ++ [l], true⟩ } →
        ∃ new, (srun (rxs cs) (readChar s x.1 x.2)).handed = s.handed ++ new ∧ (srun (rxs cs) (readChar s x.1 x.2)).outcomes = s.outcomes ∧
        (srun (rxs cs) (readChar s x.1 x.2)).expect = some p ∧ (srun (rxs cs) (readChar s x.1 x.2)).alive = true ∧
        (∃ pre l post, new = pre ++ l :: post ∧ (srun (rxs cs) (readChar s x.1 x.2)).pending = some ⟨old ++ pre ++ [l], true⟩ ∧
          (∀ x ∈ pre, ¬ IsFinal x) ∧ (IsFinal l ∨ p <:+ l) ∧
          notificationLines (srun (rxs cs) (readChar s x.1 x.2)) = notificationLines s ++ post) := by
      intro l hl hr
      obtain ⟨new, f1, f2, f3, f4, f5⟩ := after_final cs (readChar s x.1 x.2) (by rw [hr]; intro r h; simp at h)
      rw [hr] at f1 f2 f3 f4 f5 ⊢
      refine ⟨l :: new, by rw [f1]; simp, f2, f3.trans h1, alive' _ _ h0, [], l, new, rfl, by rw [f4]; simp, by simp, hl, f5⟩
    rcases readChar_cases s x.1 x.2 with ⟨l, hb, _, h3⟩ | ⟨hb, h3⟩ | ⟨_, q, hq, hsuf, h3⟩ | ⟨_, _, h3⟩
    · have hs' : readChar s x.1 x.2 = { s with rxBuffer := [], handed := s.handed ++ [l], pending := some ⟨old ++ [l], isResponseTerm l⟩ } := by
        rw [h3]; simp [handleLineRead, h2]
      by_cases hl : isResponseTerm l = true
      · rw [hl] at hs'
        obtain ⟨new, f1, f2, f3, f4, f5⟩ := done l (.inl (isResponseTerm_iff.1 hl)) hs'
        exact ⟨new, f1, f2, f3, f4, .inr f5⟩
      · have hl' : ¬ IsFinal l := fun h => hl (isResponseTerm_iff.2 h)
        rw [Bool.not_eq_true] at hl
        rw [hl] at hs'
        rw [hs']
        obtain ⟨new, f1, f2, f3, f4, f5⟩ := ih { s with rxBuffer := [], handed := s.handed ++ [l], pending := some ⟨old ++ [l], false⟩ } (old ++ [l]) h0 h1 rfl
        refine ⟨l :: new, by rw [f1]; simp, f2, f3, f4, ?_⟩
        rcases f5 with ⟨g1, g2, g3, y, g4, g5⟩ | ⟨pre, t, post, g1, g2, g3, g4, g5⟩
        · refine .inl ⟨by rw [g1]; simp, ?_, g3, l ++ [13, 10] ++ y, ?_, ?_⟩
          · intro a ha
            rcases List.mem_cons.1 ha with rfl | ha
            · exact hl'
            · exact g2 a ha
          · have : s.rxBuffer ++ List.map Prod.fst (x :: cs) = (s.rxBuffer ++ [x.1]) ++ List.map Prod.fst cs := by simp
            rw [this, hb, List.append_assoc (l ++ [13, 10]), ← g4]
            simp
          · rcases g5 with rfl | ⟨z, rfl⟩
            · exact .inr ⟨l ++ [13], by simp⟩
            · exact .inr ⟨l ++ [13, 10] ++ z, by simp⟩
        · refine .inr ⟨l :: pre, t, post, by rw [g1]; rfl, by rw [g2]; simp, ?_, g4, g5⟩
          intro a ha
          rcases List.mem_cons.1 ha with rfl | ha
          · exact hl'
          · exact g3 a ha
    · rw [h3]
      obtain ⟨new, f1, f2, f3, f4, f5⟩ := ih { s with rxBuffer := [] } old h0 h1 h2
      refine ⟨new, f1, f2, f3, f4, ?_⟩
      rcases f5 with ⟨g1, g2, g3, y, g4, g5⟩ | h
      · refine .inl ⟨g1, g2, g3, [13, 10] ++ y, ?_, ?_⟩
        · have : s.rxBuffer ++ List.map Prod.fst (x :: cs) = (s.rxBuffer ++ [x.1]) ++ List.map Prod.fst cs := by simp
          rw [this, hb, List.append_assoc, ← g4]
          simp
        · rcases g5 with rfl | ⟨z, rfl⟩
          · exact .inr ⟨[13], by simp⟩
          · exact .inr ⟨[13, 10] ++ z, by simp⟩
      · exact .inr h
    · rw [h1] at hq
      simp only [Option.some.injEq] at hq
      subst hq
      have hs' : readChar s x.1 x.2 = { s with rxBuffer := [], handed := s.handed ++ [s.rxBuffer ++ [x.1]], pending := some ⟨old ++ [s.rxBuffer ++ [x.1]], true⟩ } := by
        rw [h3]; simp [handleLineRead, h2]
      obtain ⟨new, f1, f2, f3, f4, f5⟩ := done _ (.inr hsuf) hs'
      exact ⟨new, f1, f2, f3, f4, .inr f5⟩
    · rw [h3]
      obtain ⟨new, f1, f2, f3, f4, f5⟩ := ih { s with rxBuffer := s.rxBuffer ++ [x.1] } old h0 h1 h2
      refine ⟨new, f1, f2, f3, f4, ?_⟩
      rcases f5 with ⟨g1, g2, g3, y, g4, g5⟩ | h
      · refine .inl ⟨g1, g2, g3, y, ?_, g5⟩
        rw [← g4]
        simp
      · exact .inr h

theorem start_prompt {es : List SEvent} {p : PyStr} (hp : p ≠ []) (hidle : (srun es).pending = none) :
    sstep (srun es) (.start (some p)) = { srun es with pending := some ⟨[], false⟩, expect := some p } := by
  have : expectOf (some p) = some p := by cases p with
    | nil => exact absurd rfl hp
    | cons a p => rfl
  simp [sstep, hidle, this]

/-- C31: a command that waits for the prompt `p` (without CR or LF) is sent, and characters arrive in
any timing. As soon as the received characters end in `p`, the call has been answered: it returns,
now or later (characters `cs'` may follow before it runs), a list of lines whose last one is final or
ends in `p`, without waiting for an end of line. -/
theorem C31_prompt (es : List SEvent) (p : PyStr) (cs cs' : List (Nat × Bool))
    (hidle : (srun es).pending = none) (halive : (srun es).alive = true)
    (hp : p ≠ []) (hfree : ∀ c ∈ p, c ≠ 13 ∧ c ≠ 10) (hend : p <:+ cs.map Prod.fst) :
    ∃ pre l, (srun (es ++ .start (some p) :: rxs (cs ++ cs') ++ [.finish])).outcomes =
        (srun es).outcomes ++ [.returned (pre ++ [l])] ∧
      (∀ x ∈ pre, ¬ IsFinal x) ∧ (IsFinal l ∨ p <:+ l) ∧
      ∃ post, (srun (es ++ .start (some p) :: rxs (cs ++ cs'))).handed = (srun es).handed ++ pre ++ l :: post ∧
        notificationLines (srun (es ++ .start (some p) :: rxs (cs ++ cs'))) = notificationLines (srun es) ++ post := by
  have e1 : ∀ cs, srun (es ++ .start (some p) :: rxs cs) = srun (rxs cs) { srun es with pending := some ⟨[], false⟩, expect := some p } := by
    intro cs
    rw [srun_append, ← start_prompt hp hidle]
    rfl
  generalize hs0 : ({ srun es with pending := some ⟨[], false⟩, expect := some p } : Comms) = s0 at *
  have h0 : s0.alive = true := by rw [← hs0]; exact halive
  have h1 : s0.expect = some p := by rw [← hs0]
  have h2 : s0.pending = some ⟨[], false⟩ := by rw [← hs0]
  have h3 : s0.handed = (srun es).handed := by rw [← hs0]
  have h4 : s0.outcomes = (srun es).outcomes := by rw [← hs0]
  have h5 : notificationLines s0 = notificationLines (srun es) := by rw [← hs0]; rfl
  -- after `cs` the response is complete
  have hset : ∃ new, (srun (rxs cs) s0).handed = s0.handed ++ new ∧ (srun (rxs cs) s0).outcomes = s0.outcomes ∧
      (∃ pre l post, new = pre ++ l :: post ∧ (srun (rxs cs) s0).pending = some ⟨pre ++ [l], true⟩ ∧
          (∀ x ∈ pre, ¬ IsFinal x) ∧ (IsFinal l ∨ p <:+ l) ∧
          notificationLines (srun (rxs cs) s0) = notificationLines s0 ++ post) := by
    rcases List.eq_nil_or_concat cs with rfl | ⟨ds, d, rfl⟩
    · obtain ⟨y, hy⟩ := hend
      simp at hy
      exact absurd hy.2 hp
    · rw [List.concat_eq_append] at hend ⊢
      rw [List.map_append, List.map_cons, List.map_nil] at hend
      have happ : srun (rxs (ds ++ [d])) s0 = sstep (srun (rxs ds) s0) (.rx d.1 d.2) := by
        simp [rxs, srun]
      obtain ⟨new, f1, f2, f3, f4, f5⟩ := collect_prompt ds s0 [] h0 h1 h2
      rcases f5 with ⟨g1, g2, g3, y, g4, g5⟩ | ⟨pre, l, post, g1, g2, g3, g4, g5⟩
      · -- not yet complete before the last character
        have hsuf : p <:+ (srun (rxs ds) s0).rxBuffer ++ [d.1] := by
          obtain ⟨z, hz⟩ := hend
          have e2 : (s0.rxBuffer ++ z) ++ p = y ++ ((srun (rxs ds) s0).rxBuffer ++ [d.1]) := by
            rw [List.append_assoc, hz, ← List.append_assoc, g4, List.append_assoc]
          rcases List.append_eq_append_iff.1 e2 with ⟨a, k1, k2⟩ | ⟨a, k1, k2⟩
          · rcases g5 with rfl | ⟨w, rfl⟩
            · simp at k1
              rw [k1.2.2] at k2
              exact ⟨[], by simpa using k2⟩
            · rcases List.eq_nil_or_concat a with rfl | ⟨a', d', rfl⟩
              · exact ⟨[], by simpa using k2⟩
              · rw [List.concat_eq_append, ← List.append_assoc] at k1
                have := List.append_inj_right' k1 rfl
                simp only [List.cons.injEq, and_true] at this
                subst this
                have := (hfree 10 (by rw [k2]; simp)).2
                exact absurd rfl this
          · exact ⟨a, k2.symm⟩
        have hne : ¬ [13, 10] <:+ (srun (rxs ds) s0).rxBuffer ++ [d.1] := by
          intro hcr
          have : d.1 = 10 := by
            obtain ⟨z, hz⟩ := hcr
            have e3 : (z ++ [13]) ++ [10] = (srun (rxs ds) s0).rxBuffer ++ [d.1] := by simpa using hz
            have := List.append_inj_right' e3 rfl
            simpa using this.symm
          obtain ⟨z, hz⟩ := hend
          rcases List.eq_nil_or_concat p with rfl | ⟨a, b, rfl⟩
          · exact hp rfl
          · rw [List.concat_eq_append, ← List.append_assoc] at hz
            have hb := List.append_inj_right' hz rfl
            simp only [List.cons.injEq, and_true] at hb
            exact (hfree b (by simp)).2 (hb.trans this)
        rw [happ]
        have hstep : sstep (srun (rxs ds) s0) (.rx d.1 d.2) =
            { srun (rxs ds) s0 with rxBuffer := [], handed := (srun (rxs ds) s0).handed ++ [(srun (rxs ds) s0).rxBuffer ++ [d.1]], pending := some ⟨new ++ [(srun (rxs ds) s0).rxBuffer ++ [d.1]], true⟩ } := by
          simp only [sstep, f4, if_true]
          rcases readChar_cases (srun (rxs ds) s0) d.1 d.2 with ⟨l, hb, _, _⟩ | ⟨hb, _⟩ | ⟨_, q, hq, _, k⟩ | ⟨_, k, _⟩
          · exact absurd ⟨l, hb.symm⟩ hne
          · exact absurd ⟨[], hb.symm⟩ hne
          · rw [List.nil_append] at g1
            rw [k]
            unfold handleLineRead
            dsimp only
            rw [g1, f4]
            rfl
          · exact absurd hsuf (k p f3)
        rw [hstep]
        refine ⟨new ++ [(srun (rxs ds) s0).rxBuffer ++ [d.1]], by simp [f1], f2, new, _, [], rfl, rfl, g2, .inr hsuf, ?_⟩
        rw [List.append_nil]; exact g3
      · -- complete already
        obtain ⟨new', k1, k2, _, k4, k5⟩ := after_final [d] (srun (rxs ds) s0) (by rw [g2]; intro r h; simp at h)
        rw [show srun (rxs [d]) (srun (rxs ds) s0) = srun (rxs (ds ++ [d])) s0 by simp [rxs, srun]] at k1 k2 k4 k5
        refine ⟨new ++ new', by rw [k1, f1]; simp, k2.trans f2, pre, l, post ++ new', by rw [g1]; simp, ?_, g3, g4, ?_⟩
        · rw [k4, g2]; simp
        · rw [k5, g5]; simp
  obtain ⟨new, f1, f2, pre, l, post, g1, g2, g3, g4, g5⟩ := hset
  obtain ⟨new', k1, k2, _, k4, k5⟩ := after_final cs' (srun (rxs cs) s0) (by rw [g2]; intro r h; simp at h)
  have happ : srun (rxs (cs ++ cs')) s0 = srun (rxs cs') (srun (rxs cs) s0) := by simp [rxs, srun]
  rw [← happ] at k1 k2 k4 k5
  refine ⟨pre, l, ?_, g3, g4, post ++ new', ?_, ?_⟩
  · rw [srun_append, e1]
    generalize srun (rxs (cs ++ cs')) s0 = s2 at *
    rw [g2] at k4
    have : srun [.finish] s2 = { s2 with pending := none, expect := none, outcomes := s2.outcomes ++ [.returned (pre ++ [l])] } := by
      simp [srun, sstep, k4]
    rw [this]
    show s2.outcomes ++ _ = _
    rw [k2, f2, h4]
  · rw [e1, k1, f1, g1, h3]; simp
  · rw [e1, k5, g5, h5]; simp

/-- C31: and only then (or on a final result code): every line of a response that is not complete
is neither final nor ended by the prompt. -/
theorem C31_only (es : List SEvent) (p : PyStr) (cs : List (Nat × Bool))
    (hidle : (srun es).pending = none) (halive : (srun es).alive = true) (hp : p ≠ []) :
    (∃ pre l, (srun (es ++ .start (some p) :: rxs cs)).pending = some ⟨pre ++ [l], true⟩ ∧ (IsFinal l ∨ p <:+ l)) ∨
    (∃ new, (srun (es ++ .start (some p) :: rxs cs)).pending = some ⟨new, false⟩ ∧
      (srun (es ++ .start (some p) :: rxs cs)).handed = (srun es).handed ++ new ∧
      srun (es ++ .start (some p) :: rxs cs ++ [.finish]) = srun (es ++ .start (some p) :: rxs cs)) := by
  have e1 : srun (es ++ .start (some p) :: rxs cs) = srun (rxs cs) { srun es with pending := some ⟨[], false⟩, expect := some p } := by
    rw [srun_append, ← start_prompt hp hidle]
    rfl
  obtain ⟨new, f1, f2, f3, f4, f5⟩ := collect_prompt (p := p) cs { srun es with pending := some ⟨[], false⟩, expect := some p } [] halive rfl rfl
  rw [srun_append (es ++ .start (some p) :: rxs cs) [.finish], e1]
  rcases f5 with ⟨g1, _⟩ | ⟨pre, l, post, _, g2, _, g4, _⟩
  · rw [List.nil_append] at g1
    refine .inr ⟨new, g1, f1, ?_⟩
    simp only [srun, List.foldl, sstep] at g1 ⊢
    rw [g1]
  · rw [List.nil_append] at g2
    exact .inl ⟨pre, l, g2, g4⟩

/-! ### Examples and limits -/

/-- The characters of a text, each followed by more (except the last). -/
def burst (t : PyStr) : List (Nat × Bool) := t.zipIdx.map fun x => (x.1, decide (x.2 + 1 < t.length))

/-- A command, its response and a notification in the same burst. -/
def demo : List SEvent := [.start none] ++ rxs (burst py!"\r\n+CSQ: 18,99\r\n\r\nOK\r\n+CMTI: \"ME\",3\r\n") ++ [.finish]

example : (srun demo).outcomes = [.returned [py!"+CSQ: 18,99", py!"OK"]] ∧
    (srun demo).notified = [[py!"+CMTI: \"ME\",3"]] ∧ (srun demo).rxBuffer = [] := by decide +kernel

example : (srun ([.start none] ++ rxs (burst py!"+CSQ: 18,99\r\n") ++ .expire :: rxs (burst py!"OK\r\n"))).outcomes =
    [.timeout (some [py!"+CSQ: 18,99"])] := by decide +kernel

example : (srun ([.start (some py!"> ")] ++ rxs (burst py!"\r\n> ") ++ [.finish])).outcomes =
    [.returned [py!"> "]] := by decide +kernel

/-- C28: any line that merely begins with "OK" is taken for the final result code, so a payload line
such as the text of a stored message ends the response early, and the rest of the response becomes a
notification. -/
theorem C28_payload_ends_response :
    let s := srun ([.start none] ++ rxs (burst py!"+CMGR: 1\r\nOK, see you\r\n\r\nOK\r\n") ++ [.finish])
    s.outcomes = [.returned [py!"+CMGR: 1", py!"OK, see you"]] ∧ s.notified = [[py!"OK"]] := by decide +kernel

/-- C28: an unsolicited line that arrives while a command is pending is put into its response. -/
theorem C28_unsolicited_in_response :
    let s := srun ([.start none] ++ rxs (burst py!"+CMTI: \"SM\",1\r\n+CSQ: 18,99\r\nOK\r\n") ++ [.finish])
    s.outcomes = [.returned [py!"+CMTI: \"SM\",1", py!"+CSQ: 18,99", py!"OK"]] ∧ s.notified = [] := by decide +kernel

/-- C30: the late response of a timed-out command is returned to the next command. -/
theorem C30_late_response :
    let s := srun ([.start none, .expire, .start none] ++ rxs (burst py!"+CREG: 0,1\r\nOK\r\n") ++ [.finish])
    s.outcomes = [.timeout none, .returned [py!"+CREG: 0,1", py!"OK"]] := by decide +kernel

/-- C31: a prompt that begins with an end of line is never recognised, because the reader drops it
with the end of line before. -/
theorem C31_prompt_with_eol :
    let s := srun ([.start (some py!"\r\n> ")] ++ rxs (burst py!"\r\n> ") ++ [.finish])
    s.outcomes = [] ∧ s.rxBuffer = py!"> " := by decide +kernel

end Gsm
