import Verif.Lemmas.Stack
import Verif.Props.Serial
/-! # Every schedule with answers that can be heard happens on some serial line -/
namespace Gsm
open List Spec

variable {lim : Limits} {env : Env}

/-- The characters arrive, and more are waiting. -/
def hear (s : PyStr) : List SEvent := s.map fun x => .rx x true

theorem hear_append (a b : PyStr) : hear (a ++ b) = hear a ++ hear b := List.map_append

theorem sstep_rx {c : Comms} (h : c.alive = true) (x : Nat) (m : Bool) : sstep c (.rx x m) = readChar c x m := if_pos h

/-- Characters that complete nothing. -/
theorem srun_hear {s : PyStr} : ∀ {c : Comms}, c.alive = true →
    (∀ a, a <+: s → a ≠ [] → ¬ [13, 10] <:+ c.rxBuffer ++ a ∧ ∀ q, c.expect = some q → ¬ q <:+ c.rxBuffer ++ a) →
    srun (hear s) c = { c with rxBuffer := c.rxBuffer ++ s } := by
  induction s with
  | nil => intro c _ _; simp [hear, srun]
  | cons x s ih =>
    intro c ha h
    have hx := h [x] ⟨s, rfl⟩ (by simp)
    have e1 : sstep c (.rx x true) = { c with rxBuffer := c.rxBuffer ++ [x] } := by
      rw [sstep_rx ha]
      rcases readChar_cases c x true with ⟨l, e, _, _⟩ | ⟨e, _⟩ | ⟨_, q, hq, hs, _⟩ | ⟨_, _, h3⟩
      · exact absurd ⟨l, e.symm⟩ hx.1
      · exact absurd ⟨[], e.symm⟩ hx.1
      · exact absurd hs (hx.2 q hq)
      · exact h3
    have e2 : srun (hear (x :: s)) c = srun (hear s) (sstep c (.rx x true)) := rfl
    rw [e2, e1, ih (by exact ha)]
    · dsimp only
      rw [List.append_assoc]
      rfl
    · intro a hs hne
      dsimp only
      rw [List.append_assoc]
      exact h ([x] ++ a) (List.cons_prefix_cons.2 ⟨rfl, hs⟩) (by simp)

theorem noEol_prefix {l a : PyStr} (h : NoEol l) (ha : a <+: l) : ¬ [13, 10] <:+ a := fun ⟨x, e⟩ => by
  obtain ⟨y, rfl⟩ := ha
  exact h ⟨x, y, by rw [e]⟩

theorem noEol_cr {l : PyStr} (h : NoEol l) : NoEol (l ++ [13]) := by
  refine noEol_snoc h fun ⟨x, e⟩ => ?_
  have e' : (x ++ [13]) ++ [10] = l ++ [13] := by rw [← e]; simp
  have := (List.append_inj' e' rfl).2
  simp at this

/-- The last character of a line. -/
theorem sstep_eol {c : Comms} {l : PyStr} {m : Bool} (ha : c.alive = true) (hb : c.rxBuffer = l ++ [13]) (hl : l ≠ []) :
    sstep c (.rx 10 m) = handleLineRead { c with rxBuffer := [] } l true m := by
  have e0 : c.rxBuffer ++ [10] = l ++ [13, 10] := by rw [hb]; simp
  rw [sstep_rx ha]
  rcases readChar_cases c 10 m with ⟨l', e, _, h3⟩ | ⟨e, _⟩ | ⟨h1, _⟩ | ⟨h1, _⟩
  · rw [h3]
    rw [e0] at e
    rw [(List.append_inj' e rfl).1]
  · rw [e0] at e
    exact absurd (List.append_inj' (s₁ := l) (s₂ := []) e rfl).1 hl
  · exact absurd ⟨l, e0.symm⟩ h1
  · exact absurd ⟨l, e0.symm⟩ h1

/-- Nothing is going on. -/
structure Quiet (c : Comms) : Prop where
  alive : c.alive = true
  buffer : c.rxBuffer = []
  pending : c.pending = none
  expect : c.expect = none
  notification : c.notification = []

/-- These lines of the answer have been read. -/
structure Waits (p : Option PyStr) (ls : List PyStr) (b : Bool) (c0 c : Comms) : Prop where
  alive : c.alive = true
  buffer : c.rxBuffer = []
  pending : c.pending = some ⟨ls, b⟩
  expect : c.expect = p
  notification : c.notification = []
  outcomes : c.outcomes = c0.outcomes
  notified : c.notified = c0.notified

/-- The prompt that is waited for, if any, does not end with CR. -/
def PromptOk (p : Option PyStr) : Prop := ∀ q, p = some q → ∃ a, q = a ++ [32]

theorem promptOk_promptOf (t : PyStr) : PromptOk (promptOf t) := by
  intro q hq
  unfold promptOf at hq
  split at hq
  · cases hq; exact ⟨[62], rfl⟩
  · cases hq

theorem expectOf_ok {p : Option PyStr} (hp : PromptOk p) : expectOf p = p := expectOf_ne fun h => by
  obtain ⟨a, e⟩ := hp _ h
  simp at e

theorem promptOk_cr {p : Option PyStr} (hp : PromptOk p) {q : PyStr} (hq : p = some q) (l : PyStr) : ¬ q <:+ l ++ [13] := by
  obtain ⟨a, rfl⟩ := hp q hq
  rintro ⟨x, e⟩
  rw [← List.append_assoc] at e
  have := (List.append_inj' e rfl).2
  simp at this

/-- One more line of the answer. -/
theorem waits_line {p : Option PyStr} (hp : PromptOk p) {ls : List PyStr} {c0 c : Comms} (h : Waits p ls false c0 c) {l : PyStr} (hl : LineText l) (hn : ∀ q, p = some q → ¬ q <:+: l) :
    Waits p (ls ++ [l]) (isResponseTerm l) c0 (srun (hear (l ++ [13, 10])) c) := by
  have e0 : l ++ [13, 10] = (l ++ [13]) ++ [10] := by simp
  have e1 : srun (hear (l ++ [13])) c = { c with rxBuffer := l ++ [13] } := by
    rw [srun_hear h.alive, h.buffer, List.nil_append]
    intro a ha _
    rw [h.buffer, List.nil_append]
    refine ⟨noEol_prefix (noEol_cr hl.2) ha, fun q hq hs => ?_⟩
    rw [h.expect] at hq
    rcases List.prefix_concat_iff.1 ha with rfl | ha
    · exact promptOk_cr hp hq l hs
    · exact hn q hq (infix_iff_suffix.2 ⟨a, ha, hs⟩)
  rw [e0, hear_append, srun_append, e1]
  show Waits p (ls ++ [l]) (isResponseTerm l) c0 (sstep { c with rxBuffer := l ++ [13] } (.rx 10 true))
  rw [sstep_eol (l := l) (by exact h.alive) rfl hl.1]
  simp only [handleLineRead, h.pending]
  exact ⟨h.alive, rfl, by simp, h.expect, h.notification, h.outcomes, h.notified⟩

theorem waits_lines {p : Option PyStr} (hp : PromptOk p) {c0 : Comms} : ∀ (more : List PyStr) {ls : List PyStr} {c : Comms}, Waits p ls false c0 c →
    (∀ l ∈ more, LineText l ∧ ¬ IsFinal l ∧ ∀ q, p = some q → ¬ q <:+: l) → ∃ s, Waits p (ls ++ more) false c0 (srun (hear s) c) := by
  intro more
  induction more with
  | nil => intro ls c h _; exact ⟨[], by simpa [hear, srun] using h⟩
  | cons l more ih =>
    intro ls c h hm
    obtain ⟨h1, h2, h3⟩ := hm l (by simp)
    have h4 := waits_line hp h h1 h3
    rw [show isResponseTerm l = false from by
      cases hb : isResponseTerm l with
      | false => rfl
      | true => exact absurd (isResponseTerm_iff.1 hb) h2] at h4
    obtain ⟨s, hs⟩ := ih h4 fun l hl => hm l (List.mem_cons_of_mem _ hl)
    refine ⟨(l ++ [13, 10]) ++ s, ?_⟩
    rw [hear_append, srun_append]
    simpa using hs

/-- The first line of the answer, of which part comes before the command is written. -/
theorem waits_first {p : Option PyStr} (hp : PromptOk p) {c : Comms} (h : Quiet c) {l : PyStr} (hl : LineText l) :
    Waits p [l] (isResponseTerm l) c (srun (hear [10]) (sstep (srun (hear (l ++ [13])) c) (.start p))) := by
  have e1 : srun (hear (l ++ [13])) c = { c with rxBuffer := l ++ [13] } := by
    rw [srun_hear h.alive, h.buffer, List.nil_append]
    intro a ha _
    rw [h.buffer, List.nil_append]
    exact ⟨noEol_prefix (noEol_cr hl.2) ha, fun q hq => by rw [h.expect] at hq; cases hq⟩
  rw [e1]
  have e2 : sstep { c with rxBuffer := l ++ [13] } (.start p) = { c with rxBuffer := l ++ [13], pending := some ⟨[], false⟩, expect := p } := by
    simp only [sstep, h.pending, h.expect, expectOf_ok hp, Option.or_none]
  rw [e2]
  show Waits p [l] (isResponseTerm l) c (sstep _ (.rx 10 true))
  rw [sstep_eol (l := l) (by exact h.alive) rfl hl.1]
  simp only [handleLineRead]
  exact ⟨h.alive, rfl, by simp, rfl, h.notification, rfl, rfl⟩

/-- The last character of a prompt. -/
theorem sstep_prompt {c : Comms} {l : PyStr} {x : Nat} {m : Bool} (ha : c.alive = true) (hb : c.rxBuffer = l) (hl : NoEol (l ++ [x])) {q : PyStr} (hq : c.expect = some q) (hs : q <:+ l ++ [x]) :
    sstep c (.rx x m) = handleLineRead { c with rxBuffer := [] } (l ++ [x]) false m := by
  subst hb
  have hn := noEol_prefix hl List.prefix_rfl
  rw [sstep_rx ha]
  rcases readChar_cases c x m with ⟨l', e, _, _⟩ | ⟨e, _⟩ | ⟨_, _, _, _, h3⟩ | ⟨_, h1, _⟩
  · exact absurd ⟨l', e.symm⟩ hn
  · exact absurd ⟨[], e.symm⟩ hn
  · exact h3
  · exact absurd hs (h1 q hq)

/-- `pre` has been read, and the command was written. -/
theorem play_begun {p : Option PyStr} (hp : PromptOk p) {c : Comms} (h : Quiet c) {pre : List PyStr} (hb : Begun p pre) (hne : pre ≠ []) :
    ∃ a b, Waits p pre false c (srun (hear b) (sstep (srun (hear a) c) (.start p))) := by
  cases pre with
  | nil => exact absurd rfl hne
  | cons l more =>
    have h1 := waits_first hp h (hb.readable l (by simp))
    rw [show isResponseTerm l = false from by
      cases ht : isResponseTerm l with
      | false => rfl
      | true => exact absurd (isResponseTerm_iff.1 ht) (hb.notFinal l (by simp))] at h1
    obtain ⟨s, hs⟩ := waits_lines hp more h1 fun l' hl' =>
      ⟨hb.readable l' (List.mem_cons_of_mem _ hl'), hb.notFinal l' (List.mem_cons_of_mem _ hl'), fun q hq => hb.unprompted q hq l' hl'⟩
    refine ⟨l ++ [13], [10] ++ s, ?_⟩
    rw [hear_append, srun_append]
    exact hs

theorem play_heard {p : Option PyStr} (hp : PromptOk p) {c : Comms} (h : Quiet c) {ls : List PyStr} (hh : Heard p ls) :
    ls ≠ [] ∧ ∃ a b, Waits p ls true c (srun (hear b) (sstep (srun (hear a) c) (.start p))) := by
  cases hh with
  | @code pre l hb hl hf hu =>
    refine ⟨by simp, ?_⟩
    by_cases hne : pre = []
    · subst hne
      have h1 := waits_first hp h hl
      rw [isResponseTerm_iff.2 hf] at h1
      exact ⟨_, _, h1⟩
    · obtain ⟨a, b, h1⟩ := play_begun hp h hb hne
      have h2 := waits_line hp h1 hl fun q hq => hu q hq l (by
        cases pre with
        | nil => exact absurd rfl hne
        | cons x pre => simp)
      rw [isResponseTerm_iff.2 hf] at h2
      exact ⟨a, b ++ (l ++ [13, 10]), by rw [hear_append, srun_append]; exact h2⟩
  | @prompt pre l q hb hq hs hl hfirst =>
    refine ⟨by simp, ?_⟩
    obtain ⟨l1, x, rfl⟩ : ∃ l1 x, l = l1 ++ [x] := by
      rcases List.eq_nil_or_concat l with rfl | ⟨l1, x, rfl⟩
      · obtain ⟨a, e⟩ := hp q hq
        rw [List.suffix_nil.1 hs] at e
        simp at e
      · exact ⟨l1, x, by simp⟩
    have hl1 : NoEol l1 := noEol_left hl
    by_cases hne : pre = []
    · subst hne
      refine ⟨l1, [x], ?_⟩
      have e1 : srun (hear l1) c = { c with rxBuffer := l1 } := by
        rw [srun_hear h.alive, h.buffer, List.nil_append]
        intro a ha _
        rw [h.buffer, List.nil_append]
        exact ⟨noEol_prefix hl1 ha, fun q hq => by rw [h.expect] at hq; cases hq⟩
      rw [e1]
      have e2 : sstep { c with rxBuffer := l1 } (.start p) = { c with rxBuffer := l1, pending := some ⟨[], false⟩, expect := p } := by
        simp only [sstep, h.pending, h.expect, expectOf_ok hp, Option.or_none]
      rw [e2]
      show Waits p ([] ++ [l1 ++ [x]]) true c (sstep _ (.rx x true))
      rw [sstep_prompt (l := l1) (by exact h.alive) rfl hl hq hs]
      simp only [handleLineRead]
      exact ⟨h.alive, rfl, by simp, rfl, h.notification, rfl, rfl⟩
    · obtain ⟨a, b, h1⟩ := play_begun hp h hb hne
      refine ⟨a, b ++ (l1 ++ [x]), ?_⟩
      rw [hear_append, srun_append, hear_append, srun_append]
      generalize srun (hear b) (sstep (srun (hear a) c) (.start p)) = c1 at h1
      have e1 : srun (hear l1) c1 = { c1 with rxBuffer := l1 } := by
        rw [srun_hear h1.alive, h1.buffer, List.nil_append]
        intro a ha _
        rw [h1.buffer, List.nil_append]
        refine ⟨noEol_prefix hl1 ha, fun q' hq' hs' => ?_⟩
        rw [h1.expect, hq] at hq'
        cases hq'
        have := hfirst hne a (ha.trans (List.prefix_append _ _)) hs'
        rw [this] at ha
        have := ha.length_le
        simp at this
      rw [e1]
      show Waits p (pre ++ [l1 ++ [x]]) true c (sstep _ (.rx x true))
      rw [sstep_prompt (l := l1) (by exact h1.alive) rfl hl (by exact h1.expect.trans hq) hs]
      simp only [handleLineRead, h1.pending]
      exact ⟨h1.alive, rfl, by simp, h1.expect, h1.notification, h1.outcomes, h1.notified⟩

/-- A wait is over. -/
theorem play_over {p : Option PyStr} {ls : List PyStr} {b : Bool} {c0 c : Comms} (h : Waits p ls b c0 c) :
    (b = true → Quiet (sstep c .finish) ∧ (sstep c .finish).outcomes = c0.outcomes ++ [.returned ls] ∧ (sstep c .finish).notified = c0.notified) ∧
    Quiet (sstep c .expire) ∧ (sstep c .expire).outcomes = c0.outcomes ++ [.timeout (if ls.length > 0 then some ls else none)] ∧ (sstep c .expire).notified = c0.notified := by
  refine ⟨fun hb => ?_, ?_⟩
  · subst hb
    simp only [sstep, h.pending, h.outcomes]
    exact ⟨⟨h.alive, h.buffer, rfl, rfl, h.notification⟩, trivial, h.notified⟩
  · simp only [sstep, h.pending, h.outcomes]
    exact ⟨⟨h.alive, h.buffer, rfl, rfl, h.notification⟩, trivial, h.notified⟩

/-- Whatever `SerialComms.write` can come to, it comes to for some characters. -/
theorem play_reply {p : Option PyStr} (hp : PromptOk p) {c : Comms} (h : Quiet c) {r : Reply} (hr : Comes p r) :
    ∃ a b e o, (e = .finish ∨ e = .expire) ∧ Quiet (sstep (srun (hear b) (sstep (srun (hear a) c) (.start p))) e) ∧
      (sstep (srun (hear b) (sstep (srun (hear a) c) (.start p))) e).outcomes = c.outcomes ++ [o] ∧ (srun (hear b) (sstep (srun (hear a) c) (.start p))).outcomes = c.outcomes ∧
      o.reply = r ∧ (srun (hear b) (sstep (srun (hear a) c) (.start p))).notified = c.notified := by
  cases hr with
  | answer hh =>
    obtain ⟨_, a, b, hw⟩ := play_heard hp h hh
    obtain ⟨h1, h2, _⟩ := (play_over hw).1 rfl
    exact ⟨a, b, .finish, _, .inl rfl, h1, h2, hw.outcomes, rfl, hw.notified⟩
  | silence =>
    have hw : Waits p [] false c (srun (hear []) (sstep (srun (hear []) c) (.start p))) := by
      show Waits p [] false c (sstep c (.start p))
      simp only [sstep, h.pending, h.expect, expectOf_ok hp, Option.or_none]
      exact ⟨h.alive, h.buffer, rfl, rfl, h.notification, rfl, rfl⟩
    obtain ⟨h1, h2, _⟩ := (play_over hw).2
    exact ⟨[], [], .expire, _, .inr rfl, h1, h2, hw.outcomes, rfl, hw.notified⟩
  | @begun ls hne hb =>
    obtain ⟨a, b, hw⟩ := play_begun hp h hb hne
    obtain ⟨h1, h2, _⟩ := (play_over hw).2
    rw [if_pos (List.length_pos_of_ne_nil hne)] at h2
    exact ⟨a, b, .expire, _, .inr rfl, h1, h2, hw.outcomes, rfl, hw.notified⟩
  | @late ls hh =>
    obtain ⟨hne, a, b, hw⟩ := play_heard hp h hh
    obtain ⟨h1, h2, _⟩ := (play_over hw).2
    rw [if_pos (List.length_pos_of_ne_nil hne)] at h2
    exact ⟨a, b, .expire, _, .inr rfl, h1, h2, hw.outcomes, rfl, hw.notified⟩

/-! ### Notifications -/

/-- A line of a batch. -/
theorem notify_line {c : Comms} (h1 : c.alive = true) (h2 : c.rxBuffer = []) (h4 : c.expect = none) {l : PyStr} (hl : LineText l) (m : Bool) :
    srun (hear (l ++ [13]) ++ [.rx 10 m]) c = handleLineRead { c with rxBuffer := [] } l true m := by
  have e1 : srun (hear (l ++ [13])) c = { c with rxBuffer := l ++ [13] } := by
    rw [srun_hear h1, h2, List.nil_append]
    intro a ha _
    rw [h2, List.nil_append]
    exact ⟨noEol_prefix (noEol_cr hl.2) ha, fun q hq => by rw [h4] at hq; cases hq⟩
  rw [srun_append, e1]
  show sstep _ (.rx 10 m) = _
  rw [sstep_eol (l := l) (by exact h1) rfl hl.1]

theorem play_batch : ∀ (batch : List PyStr) (c : Comms), c.alive = true → c.rxBuffer = [] → c.pending = none → c.expect = none → batch ≠ [] → (∀ l ∈ batch, LineText l) →
    ∃ cs : List (Nat × Bool), Quiet (srun (cs.map fun z => .rx z.1 z.2) c) ∧ (srun (cs.map fun z => .rx z.1 z.2) c).notified = c.notified ++ [c.notification ++ batch] := by
  intro batch
  induction batch with
  | nil => intro c _ _ _ _ h; exact absurd rfl h
  | cons l batch ih =>
    intro c h1 h2 h3 h4 _ hl
    have hll := hl l (by simp)
    have ev : ∀ m, hear (l ++ [13]) ++ [.rx 10 m] = (((l ++ [13]).map fun x => (x, true)) ++ [(10, m)]).map fun z : Nat × Bool => SEvent.rx z.1 z.2 := by
      intro m; simp [hear]
    by_cases hb : batch = []
    · subst hb
      refine ⟨((l ++ [13]).map fun x => (x, true)) ++ [(10, false)], ?_⟩
      rw [← ev, notify_line h1 h2 h4 hll]
      simp only [handleLineRead, h3, Bool.false_eq_true, if_false]
      exact ⟨⟨h1, rfl, rfl, h4, rfl⟩, trivial⟩
    · have e := notify_line h1 h2 h4 hll true
      obtain ⟨c1, hc1⟩ : ∃ c1, c1 = srun (hear (l ++ [13]) ++ [.rx 10 true]) c := ⟨_, rfl⟩
      have e' : c1 = { c with rxBuffer := [], handed := c.handed ++ [l], notification := c.notification ++ [l] } := by
        rw [hc1, e]
        simp only [handleLineRead, h3, if_true]
      obtain ⟨cs, h5, h6⟩ := ih c1 (by rw [e']; exact h1) (by rw [e']) (by rw [e']; exact h3) (by rw [e']; exact h4) hb fun l' hl' => hl l' (List.mem_cons_of_mem _ hl')
      refine ⟨(((l ++ [13]).map fun x => (x, true)) ++ [(10, true)]) ++ cs, ?_⟩
      rw [List.map_append, ← ev, srun_append, ← hc1]
      refine ⟨h5, h6.trans ?_⟩
      rw [e']
      simp

theorem play_batches : ∀ (bs : List (List PyStr)) (c : Comms), Quiet c → (∀ b ∈ bs, Batch b) →
    ∃ cs : List (Nat × Bool), Quiet (srun (cs.map fun z => .rx z.1 z.2) c) ∧ (srun (cs.map fun z => .rx z.1 z.2) c).notified = c.notified ++ bs := by
  intro bs
  induction bs with
  | nil => exact fun c h _ => ⟨[], h, by simp [srun]⟩
  | cons b bs ih =>
    intro c h hb
    obtain ⟨cs, h1, h2⟩ := play_batch b c h.alive h.buffer h.pending h.expect (hb b (by simp)).1 (hb b (by simp)).2
    obtain ⟨cs', h3, h4⟩ := ih _ h1 fun b' hb' => hb b' (List.mem_cons_of_mem _ hb')
    refine ⟨cs ++ cs', ?_⟩
    rw [List.map_append, srun_append]
    refine ⟨h3, h4.trans ?_⟩
    rw [h2, h.notification]
    simp

/-! ### The stack -/

theorem runs_append [PyUnicode] (a b : List StackEvent) (x : Stack) : Stack.runs lim (a ++ b) x = Stack.runs lim b (Stack.runs lim a x) := List.foldl_append

theorem srun_notified (es : List SEvent) (c : Comms) : c.notified <+: (srun es c).notified := by
  induction es generalizing c with
  | nil => exact List.prefix_rfl
  | cons e es ih => exact (notified_grows c e).trans (ih (sstep c e))

theorem runs_arrives [PyUnicode] (cs : List (Nat × Bool)) : ∀ x : Stack,
    Stack.runs lim (cs.map fun z => .arrives z.1 z.2) x = { x with
      comms := srun (cs.map fun z => .rx z.1 z.2) x.comms, threads := x.threads ++ ((srun (cs.map fun z => .rx z.1 z.2) x.comms).notified.drop x.comms.notified.length).map notifyProc } := by
  induction cs with
  | nil => intro x; simp [Stack.runs, srun]
  | cons z cs ih =>
    intro x
    show Stack.runs lim (cs.map fun z => .arrives z.1 z.2) (x.reader (.rx z.1 z.2)) = _
    rw [ih]
    have e : srun ((z :: cs).map fun z => SEvent.rx z.1 z.2) x.comms = srun (cs.map fun z => .rx z.1 z.2) (sstep x.comms (.rx z.1 z.2)) := rfl
    rw [e]
    unfold Stack.reader
    dsimp only
    obtain ⟨n1, h1⟩ := notified_grows x.comms (.rx z.1 z.2)
    obtain ⟨n2, h2⟩ := srun_notified (cs.map fun z => .rx z.1 z.2) (sstep x.comms (.rx z.1 z.2))
    rw [← h2, ← h1]
    congr 1
    rw [List.drop_left, List.drop_left, List.append_assoc x.comms.notified, List.drop_left, List.map_append, List.append_assoc]
    rfl

theorem runs_hear [PyUnicode] (s : PyStr) (x : Stack) (h : (srun (hear s) x.comms).notified = x.comms.notified) :
    Stack.runs lim (s.map fun c => .arrives c true) x = { x with comms := srun (hear s) x.comms } := by
  have h1 := runs_arrives (lim := lim) (s.map fun c => (c, true)) x
  simp only [List.map_map, Function.comp_def] at h1
  rw [h1]
  have e : srun (s.map fun c => SEvent.rx c true) x.comms = srun (hear s) x.comms := rfl
  rw [e, h]
  simp

/-- One step of a thread. -/
theorem play_step [PyUnicode] (hlim : env.toLimits = lim) (ha : Audible env) {x : Stack} (hq : Quiet x.comms) (hw : x.inWrite = none) (i : Nat) :
    ∃ hs, Quiet (Stack.runs lim hs x).comms ∧ (Stack.runs lim hs x).inWrite = none ∧ (Stack.runs lim hs x).comms.notified = x.comms.notified ∧
      ((Stack.runs lim hs x).threads, (Stack.runs lim hs x).shared) = runProcs env [i] (x.threads, x.shared) := by
  cases hi : x.threads[i]? with
  | none => exact ⟨[], hq, hw, rfl, by simp only [runProcs, hi]; rfl⟩
  | some p =>
    rw [runProcs_one hi]
    cases p with
    | done r =>
      refine ⟨[], hq, hw, rfl, ?_⟩
      refine Prod.ext ?_ rfl
      obtain ⟨hl, he⟩ := List.getElem?_eq_some_iff.1 hi
      show x.threads = x.threads.set i (.done r)
      rw [← he, List.set_getElem_self]
    | act f k =>
      refine ⟨[.thread i], ?_⟩
      have e : Stack.runs lim [.thread i] x = { x with threads := x.threads.set i (k lim x.shared), shared := f lim x.shared } := by
        simp only [Stack.runs, List.foldl_cons, List.foldl_nil, Stack.happens, hi]
      rw [e]
      refine ⟨hq, hw, rfl, ?_⟩
      dsimp only [Proc.step]
      rw [hlim]
    | io t k =>
      obtain ⟨a, b, e, o, he, h1, h2, h3, h4, h5⟩ := play_reply (promptOk_promptOf t) hq (comes_promptOf.2 (ha t x.shared.st.log))
      -- the notifications stay as they are
      have n2 : (srun (hear a) x.comms).notified <+: (sstep (srun (hear a) x.comms) (.start (promptOf t))).notified := notified_grows _ _
      have n3 : (sstep (srun (hear a) x.comms) (.start (promptOf t))).notified <+: (srun (hear b) (sstep (srun (hear a) x.comms) (.start (promptOf t)))).notified := srun_notified _ _
      have n1 : x.comms.notified <+: (srun (hear a) x.comms).notified := srun_notified _ _
      have m2 : (sstep (srun (hear a) x.comms) (.start (promptOf t))).notified = x.comms.notified := by
        rw [h5] at n3
        exact n3.eq_of_length (Nat.le_antisymm n3.length_le (n1.trans n2).length_le)
      have m1 : (srun (hear a) x.comms).notified = x.comms.notified := by
        rw [m2] at n2
        exact n2.eq_of_length (Nat.le_antisymm n2.length_le n1.length_le)
      obtain ⟨c1, hc1⟩ : ∃ c1, c1 = srun (hear a) x.comms := ⟨_, rfl⟩
      obtain ⟨c2, hc2⟩ : ∃ c2, c2 = sstep c1 (.start (promptOf t)) := ⟨_, rfl⟩
      obtain ⟨c3, hc3⟩ : ∃ c3, c3 = srun (hear b) c2 := ⟨_, rfl⟩
      rw [← hc1] at m1
      rw [← hc1, ← hc2] at m2
      rw [← hc1, ← hc2, ← hc3] at h1 h2 h3 h5
      have r1 : Stack.runs lim (a.map fun c => .arrives c true) x = { x with comms := c1 } := by
        rw [runs_hear a x (by rw [← hc1, m1]), hc1]
      have r2 : Stack.runs lim [.thread i] { x with comms := c1 } = { x with comms := c2, shared := x.shared.written t, inWrite := some ⟨i, t :: x.shared.st.log⟩ } := by
        simp only [Stack.runs, List.foldl_cons, List.foldl_nil, Stack.happens, hi, Stack.begin, hw, hc2]
      have r3 : Stack.runs lim (b.map fun c => .arrives c true) { x with comms := c2, shared := x.shared.written t, inWrite := some ⟨i, t :: x.shared.st.log⟩ } =
          { x with comms := c3, shared := x.shared.written t, inWrite := some ⟨i, t :: x.shared.st.log⟩ } := by
        rw [runs_hear b _ (by dsimp only; rw [← hc3, h5, m2]), hc3]
      have hans : Stack.answered { x with comms := c3, shared := x.shared.written t, inWrite := some ⟨i, t :: x.shared.st.log⟩ } e =
          { x with comms := sstep c3 e, threads := x.threads.set i (k o.reply), shared := x.shared.written t, inWrite := none } := by
        unfold Stack.answered
        dsimp only
        rw [hi, h2, h3, List.drop_left]
      have r4 : ∃ ev, Stack.runs lim [ev] { x with comms := c3, shared := x.shared.written t, inWrite := some ⟨i, t :: x.shared.st.log⟩ } =
          { x with comms := sstep c3 e, threads := x.threads.set i (k o.reply), shared := x.shared.written t, inWrite := none } := by
        rcases he with rfl | rfl
        · refine ⟨.thread i, ?_⟩
          rw [← hans]
          simp only [Stack.runs, List.foldl_cons, List.foldl_nil, Stack.happens, hi, Stack.begin, if_true]
        · exact ⟨.late, hans⟩
      obtain ⟨ev, r4⟩ := r4
      refine ⟨(a.map fun c => .arrives c true) ++ ([.thread i] ++ ((b.map fun c => .arrives c true) ++ [ev])), ?_⟩
      rw [runs_append, r1, runs_append, r2, runs_append, r3, r4]
      refine ⟨h1, rfl, ?_, ?_⟩
      · show (sstep c3 e).notified = _
        rw [← h5]
        rcases he with rfl | rfl
        · simp only [sstep]; split <;> rfl
        · simp only [sstep]; split <;> rfl
      · dsimp only [Proc.step]
        rw [h4]

theorem play_schedule [PyUnicode] (hlim : env.toLimits = lim) (ha : Audible env) : ∀ (schedule : List Nat) (x : Stack), Quiet x.comms → x.inWrite = none →
    ∃ hs, Quiet (Stack.runs lim hs x).comms ∧ (Stack.runs lim hs x).inWrite = none ∧ (Stack.runs lim hs x).comms.notified = x.comms.notified ∧
      ((Stack.runs lim hs x).threads, (Stack.runs lim hs x).shared) = runProcs env schedule (x.threads, x.shared) := by
  intro schedule
  induction schedule with
  | nil => exact fun x hq hw => ⟨[], hq, hw, rfl, rfl⟩
  | cons i schedule ih =>
    intro x hq hw
    obtain ⟨hs, h1, h2, h3, h4⟩ := play_step hlim ha hq hw i
    obtain ⟨hs', h5, h6, h7, h8⟩ := ih _ h1 h2
    refine ⟨hs ++ hs', ?_⟩
    rw [runs_append]
    refine ⟨h5, h6, h7.trans h3, h8.trans ?_⟩
    rw [h4, ← procs_append]
    rfl

/-- Every schedule of the threads, with answers and notifications that can be heard, happens on some serial line. -/
theorem stack_backward [PyUnicode] (hlim : env.toLimits = lim) (ha : Audible env) (jobs : List Job) (w : Shared) (bs : List (List PyStr)) (hb : ∀ b ∈ bs, Batch b) (schedule : List Nat) :
    ∃ hs, (Stack.runs lim hs (Stack.start jobs w)).inWrite = none ∧ (Stack.runs lim hs (Stack.start jobs w)).comms.notified = bs ∧
      ((Stack.runs lim hs (Stack.start jobs w)).threads, (Stack.runs lim hs (Stack.start jobs w)).shared) = performJobs env schedule (jobs ++ bs.map fun b => .task (.notify b)) w := by
  obtain ⟨cs, h1, h2⟩ := play_batches bs {} ⟨rfl, rfl, rfl, rfl, rfl⟩ hb
  have e1 := runs_arrives (lim := lim) cs (Stack.start jobs w)
  obtain ⟨x1, hx1⟩ : ∃ x1, x1 = Stack.runs lim (cs.map fun z => .arrives z.1 z.2) (Stack.start jobs w) := ⟨_, rfl⟩
  rw [← hx1] at e1
  have hc : x1.comms = srun (cs.map fun z => .rx z.1 z.2) {} := by rw [e1]; rfl
  have ht : x1.threads = (jobs ++ bs.map fun b => Job.task (.notify b)).map Job.proc := by
    rw [e1]
    show (jobs.map Job.proc) ++ ((srun (cs.map fun z => .rx z.1 z.2) {}).notified.drop 0).map notifyProc = _
    rw [h2]
    simp [notifyProc, Function.comp_def]
  have hsh : x1.shared = w := by rw [e1]; rfl
  have hw : x1.inWrite = none := by rw [e1]; rfl
  obtain ⟨hs, _, h4, h5, h6⟩ := play_schedule hlim ha schedule x1 (by rw [hc]; exact h1) hw
  refine ⟨(cs.map fun z => .arrives z.1 z.2) ++ hs, ?_⟩
  rw [runs_append, ← hx1]
  refine ⟨h4, ?_, ?_⟩
  · rw [h5, hc, h2]; rfl
  · rw [h6, ht, hsh]; rfl

end Gsm
