import Verif.Lemmas.Polling
import Verif.Lemmas.Calls
import Verif.Spec.ExampleModem
/-! # C50: polling the status of an outgoing call -/
namespace Gsm
open Spec List

variable {env : Env}

/-- What a report does. -/
def perform : Option Report → M Unit
  | none => pure ()
  | some (.initiated id mode) => handleCallInitiated id mode
  | some (.answered id) => handleCallAnswered (some (id : Int))
  | some (.ended id) => handleCallEnded (some (id : Int)) false false
  | some (.rejected id) => handleCallEnded (some (id : Int)) false true

/-- The phase of a polling thread. -/
def PhaseIs (p : Poller) : Phase → Prop
  | .waiting => p.expectedState = 0 ∧ p.done = false
  | .ringing id => p.expectedState = 1 ∧ p.callId = some (id : Int) ∧ p.done = false
  | .talking id => p.expectedState = 2 ∧ p.callId = some (id : Int) ∧ p.done = false
  | .over => p.done = true

/-- The half seconds that are left after a round. -/
def leftAfter (p : Poller) : Phase → Nat
  | .waiting => p.timeLeft - 1
  | _ => p.timeLeft

/-- A round in which a query shows `o`. -/
def Sees (env : Env) (p : Poller) (ph : Phase) (s : St) (o : Seen) : Prop :=
  ∃ s1, OnlyLog s s1 ∧ Queried env.reply s.log s1.log o ∧ (pollRound p env s).2 = (perform (ph.step o).2 env s1).2 ∧
    ((perform (ph.step o).2 env s1).1 = .ok () → ∃ p', (pollRound p env s).1 = .ok p' ∧ PhaseIs p' (ph.step o).1 ∧ p'.timeLeft = leftAfter p ph) ∧
    (∀ e, (perform (ph.step o).2 env s1).1 = .error e → (pollRound p env s).1 = .error e)

/-- A round in which the query fails. -/
def Fails (env : Env) (p : Poller) (s : St) : Prop :=
  ∃ s1 e, OnlyLog s s1 ∧ QueryFails env.reply s.log s1.log ∧ pollRound p env s = (.error e, s1)

theorem sees_none {p p' : Poller} {ph : Phase} {s s1 : St} {o : Seen} (h1 : OnlyLog s s1) (h2 : Queried env.reply s.log s1.log o)
    (h3 : (ph.step o).2 = none) (h4 : pollRound p env s = (.ok p', s1)) (h5 : PhaseIs p' (ph.step o).1) (h6 : p'.timeLeft = leftAfter p ph) : Sees env p ph s o := by
  refine ⟨s1, h1, h2, ?_, fun _ => ⟨p', by rw [h4], h5, h6⟩, ?_⟩
  · rw [h3, h4]; rfl
  · rw [h3]; intro e he; cases he

theorem sees_some {p p' : Poller} {ph : Phase} {s s1 : St} {o : Seen} (h1 : OnlyLog s s1) (h2 : Queried env.reply s.log s1.log o)
    (h4 : pollRound p env s = (do perform (ph.step o).2; pure p' : M Poller) env s1) (h5 : PhaseIs p' (ph.step o).1) (h6 : p'.timeLeft = leftAfter p ph) :
    Sees env p ph s o := by
  rw [run_bind] at h4
  cases h : perform (ph.step o).2 env s1 with
  | mk r s2 =>
    rw [h] at h4
    cases r with
    | ok u => exact ⟨s1, h1, h2, by rw [h, h4]; rfl, fun _ => ⟨p', by rw [h4]; rfl, h5, h6⟩, fun e he => by rw [h] at he; cases he⟩
    | error e => exact ⟨s1, h1, h2, by rw [h, h4], fun he => by (rw [h] at he; cases he), fun e' he => by rw [h] at he; cases he; rw [h4]⟩

theorem poll_live {p : Poller} {s s1 : St} {o : Seen} (ha : s.alive = true) (ht : 0 < p.timeLeft) (hd : p.done = false) (h : clccQuery env s = (.ok (seenVal o), s1)) :
    pollRound p env s = pollStep (if p.expectedState = 0 then { p with timeLeft := p.timeLeft - 1 } else p) (seenVal o) env s1 := by
  unfold pollRound
  simp only [run_bind, run_get, ha, hd, ht, Bool.false_eq_true, not_false_eq_true, and_self, if_true, h]

theorem step_waiting (id dir stat mode : Nat) :
    (dir = 0 ∧ (stat = 2 ∨ stat = 3) ∧ Phase.step .waiting (.call id dir stat mode) = (.ringing id, some (.initiated id mode))) ∨
    (¬ (dir = 0 ∧ (stat = 2 ∨ stat = 3)) ∧ Phase.step .waiting (.call id dir stat mode) = (.waiting, none)) := by
  by_cases h : dir = 0 ∧ (stat = 2 ∨ stat = 3)
  · obtain ⟨rfl, rfl | rfl⟩ := h <;> simp [Phase.step]
  · refine .inr ⟨h, ?_⟩
    unfold Phase.step
    split <;> simp_all

theorem step_ringing (id0 id dir stat mode : Nat) :
    (dir = 0 ∧ stat = 0 ∧ Phase.step (.ringing id0) (.call id dir stat mode) = (.talking id, some (.answered id))) ∨
    (¬ (dir = 0 ∧ stat = 0) ∧ Phase.step (.ringing id0) (.call id dir stat mode) = (.ringing id0, none)) := by
  by_cases h : dir = 0 ∧ stat = 0
  · obtain ⟨rfl, rfl⟩ := h
    exact .inl ⟨rfl, rfl, rfl⟩
  · refine .inr ⟨h, ?_⟩
    unfold Phase.step
    split <;> simp_all

/-- A round in which a query shows `o`. -/
theorem round_sees {p : Poller} {ph : Phase} {s s1 : St} {o : Seen} (ha : s.alive = true) (ht : 0 < p.timeLeft) (hp : PhaseIs p ph) (ho : ph ≠ .over)
    (h1 : OnlyLog s s1) (h2 : Queried env.reply s.log s1.log o) (h3 : clccQuery env s = (.ok (seenVal o), s1)) : Sees env p ph s o := by
  have hdone : p.done = false := by cases ph <;> simp_all [PhaseIs]
  have hr := poll_live ha ht hdone h3
  obtain ⟨es, ci, tl, dn⟩ := p
  dsimp only at hr hdone
  subst hdone
  cases ph with
  | over => exact absurd rfl ho
  | waiting =>
    obtain ⟨rfl, -⟩ := hp
    cases o with
    | nothing => exact sees_none h1 h2 rfl hr ⟨rfl, rfl⟩ rfl
    | call id dir stat mode =>
      rcases step_waiting id dir stat mode with ⟨rfl, h5, h6⟩ | ⟨h5, h6⟩
      · have h5' : ((stat : Int) = 2 ∨ (stat : Int) = 3) := by omega
        refine sees_some (p' := ⟨1, some (id : Int), tl - 1, false⟩) h1 h2 ?_ (by rw [h6]; exact ⟨rfl, rfl, rfl⟩) rfl
        rw [hr, h6]
        simp only [seenVal, pollStep, if_true, h5', Nat.cast_zero]
        rfl
      · have h5' : ¬ ((dir : Int) = 0 ∧ ((stat : Int) = 2 ∨ (stat : Int) = 3)) := by omega
        refine sees_none (p' := ⟨0, ci, tl - 1, false⟩) h1 h2 (by rw [h6]) ?_ (by rw [h6]; exact ⟨rfl, rfl⟩) rfl
        rw [hr]
        simp only [seenVal, pollStep, if_true]
        split
        · split
          · exact absurd ⟨‹_›, ‹_›⟩ h5'
          · rfl
        · rfl
  | ringing id0 =>
    obtain ⟨rfl, rfl, -⟩ := hp
    cases o with
    | nothing => exact sees_some (p' := ⟨1, some (id0 : Int), tl, true⟩) h1 h2 hr rfl rfl
    | call id dir stat mode =>
      rcases step_ringing id0 id dir stat mode with ⟨rfl, rfl, h6⟩ | ⟨h5, h6⟩
      · refine sees_some (p' := ⟨2, some (id : Int), tl, false⟩) h1 h2 ?_ (by rw [h6]; exact ⟨rfl, rfl, rfl⟩) rfl
        rw [hr, h6]
        rfl
      · have h5' : ¬ ((dir : Int) = 0 ∧ (stat : Int) = 0) := by omega
        refine sees_none (p' := ⟨1, some (id0 : Int), tl, false⟩) h1 h2 (by rw [h6]) ?_ (by rw [h6]; exact ⟨rfl, rfl, rfl⟩) rfl
        rw [hr]
        simp only [seenVal, pollStep, Nat.one_ne_zero, if_false, if_true]
        split
        · split
          · exact absurd ⟨‹_›, ‹_›⟩ h5'
          · rfl
        · rfl
  | talking id0 =>
    obtain ⟨rfl, rfl, -⟩ := hp
    cases o with
    | nothing => exact sees_some (p' := ⟨2, some (id0 : Int), tl, true⟩) h1 h2 hr rfl rfl
    | call id dir stat mode =>
      refine sees_none (p' := ⟨2, some (id0 : Int), tl, false⟩) h1 h2 rfl ?_ ⟨rfl, rfl, rfl⟩ rfl
      rw [hr]
      simp only [seenVal, pollStep]
      split <;> rfl

/-- One round of a thread that is still polling. -/
theorem C50_round (hd : 0 < env.depth) {p : Poller} {ph : Phase} {s : St} (ha : s.alive = true) (ht : 0 < p.timeLeft) (hp : PhaseIs p ph) (ho : ph ≠ .over) :
    (∃ o, Sees env p ph s o) ∨ Fails env p s := by
  have hdone : p.done = false := by cases ph <;> simp_all [PhaseIs]
  obtain ⟨s1, h1, ⟨o, h2, h3⟩ | ⟨h2, e, h3⟩⟩ := query_run hd s
  · exact .inl ⟨o, round_sees ha ht hp ho h1 h2 h3⟩
  · exact .inr ⟨s1, e, h1, h2, by
      unfold pollRound
      simp only [run_bind, run_get, ha, hdone, ht, Bool.false_eq_true, not_false_eq_true, and_self, if_true, h3]⟩

/-- A thread that is over, out of time, or whose modem was closed makes no more queries. -/
theorem C50_quiet {p : Poller} {s : St} (h : s.alive = false ∨ p.timeLeft = 0 ∨ p.done = true) :
    pollRound p env s = (.ok { p with done := true }, s) := by
  have : ¬ (s.alive = true ∧ ¬ p.done = true ∧ 0 < p.timeLeft) := by
    rcases h with h | h | h <;> simp [h]
  unfold pollRound
  simp only [run_bind, run_get, if_neg this]
  rfl

/-- The rounds of a thread; `ss` are the states in which they begin: anything may happen in between. -/
def rounds (env : Env) : Poller → List St → List (Except PyErr Unit × St)
  | _, [] => []
  | p, s :: ss =>
    if s.alive = true ∧ p.done = false ∧ 0 < p.timeLeft then
      match pollRound p env s with
      | (.ok p', s') => (.ok (), s') :: rounds env p' ss
      | (.error e, s') => [(.error e, s')]
    else []

/-- `Watches env ph ss out os`: the queries made in the states `ss` show `os`, and what comes out is what the reports do. -/
inductive Watches (env : Env) : Phase → List St → List (Except PyErr Unit × St) → List Seen → Prop
  | stops {ph ss} : Watches env ph ss [] []
  | sees {ph s ss s1 s2 o out os} : OnlyLog s s1 → Queried env.reply s.log s1.log o → perform (ph.step o).2 env s1 = (.ok (), s2) →
    Watches env (ph.step o).1 ss out os → Watches env ph (s :: ss) ((.ok (), s2) :: out) (o :: os)
  | raises {ph s ss s1 s2 o e} : OnlyLog s s1 → Queried env.reply s.log s1.log o → perform (ph.step o).2 env s1 = (.error e, s2) →
    Watches env ph (s :: ss) [(.error e, s2)] [o]
  | fails {ph s ss s1 e} : OnlyLog s s1 → QueryFails env.reply s.log s1.log → Watches env ph (s :: ss) [(.error e, s1)] []

theorem rounds_watch (hd : 0 < env.depth) : ∀ (ss : List St) (p : Poller) (ph : Phase), PhaseIs p ph → ∃ os, Watches env ph ss (rounds env p ss) os
  | [], p, ph, _ => ⟨[], .stops⟩
  | s :: ss, p, ph, hp => by
    unfold rounds
    split
    · next hl =>
      have ho : ph ≠ .over := by rintro rfl; exact absurd (hl.2.1.symm.trans hp) (by simp)
      rcases C50_round hd hl.1 hl.2.2 hp ho with ⟨o, s1, h1, h2, h3, h4, h5⟩ | ⟨s1, e, h1, h2, h3⟩
      · cases h : perform (ph.step o).2 env s1 with
        | mk r s2 =>
          rw [h] at h3 h4 h5
          cases r with
          | ok u =>
            obtain ⟨p', h6, h7, _⟩ := h4 rfl
            have h8 : pollRound p env s = (.ok p', s2) := Prod.ext h6 h3
            obtain ⟨os, h9⟩ := rounds_watch hd ss p' _ h7
            rw [h8]
            exact ⟨o :: os, .sees h1 h2 h h9⟩
          | error e =>
            have h8 : pollRound p env s = (.error e, s2) := Prod.ext (h5 e rfl) h3
            rw [h8]
            exact ⟨[o], .raises h1 h2 h⟩
      · rw [h3]
        exact ⟨[], .fails h1 h2⟩
    · exact ⟨[], .stops⟩

/-- The rounds of the thread of a new call: what comes out is what is reported of the things seen. -/
theorem C50_run (hd : 0 < env.depth) (timeout : Nat) (ss : List St) : ∃ os, Watches env .waiting ss (rounds env ⟨0, none, timeout, false⟩ ss) os :=
  rounds_watch hd ss _ _ ⟨rfl, rfl⟩

theorem reports_over : ∀ os : List Seen, Phase.over.reports os = []
  | [] => rfl
  | o :: os => by
    have : Phase.over.step o = (.over, none) := rfl
    rw [Phase.reports, this]
    exact reports_over os

theorem reports_talking (id : Nat) : ∀ os : List Seen, (Phase.talking id).reports os = [] ∨ ((Phase.talking id).reports os = [.ended id] ∧ [Seen.nothing] <+ os)
  | [] => .inl rfl
  | .nothing :: os => .inr ⟨by simp [Phase.reports, Phase.step, reports_over], by simp⟩
  | .call _ _ _ _ :: os => by
    rcases reports_talking id os with h | ⟨h, h'⟩
    · exact .inl h
    · exact .inr ⟨h, h'.cons _⟩

theorem reports_ringing (id : Nat) : ∀ os : List Seen, (Phase.ringing id).reports os = [] ∨ ((Phase.ringing id).reports os = [.rejected id] ∧ [Seen.nothing] <+ os) ∨
    ∃ id' mode', ((Phase.ringing id).reports os = [.answered id'] ∧ [Seen.call id' 0 0 mode'] <+ os) ∨
      ((Phase.ringing id).reports os = [.answered id', .ended id'] ∧ [Seen.call id' 0 0 mode', .nothing] <+ os)
  | [] => .inl rfl
  | .nothing :: os => .inr (.inl ⟨by simp [Phase.reports, Phase.step, reports_over], by simp⟩)
  | .call id' dir stat mode :: os => by
    rw [Phase.reports]
    rcases step_ringing id id' dir stat mode with ⟨rfl, rfl, h⟩ | ⟨_, h⟩
    · rw [h]
      refine .inr (.inr ⟨id', mode, ?_⟩)
      rcases reports_talking id' os with h1 | ⟨h1, h2⟩
      · exact .inl ⟨by simp [h1], by simp⟩
      · exact .inr ⟨by simp [h1], h2.cons₂ _⟩
    · rw [h]
      rcases reports_ringing id os with h1 | ⟨h1, h2⟩ | ⟨i, m, ⟨h1, h2⟩ | ⟨h1, h2⟩⟩
      · exact .inl h1
      · exact .inr (.inl ⟨h1, h2.cons _⟩)
      · exact .inr (.inr ⟨i, m, .inl ⟨h1, h2.cons _⟩⟩)
      · exact .inr (.inr ⟨i, m, .inr ⟨h1, h2.cons _⟩⟩)

/-- The reports are made in order, each at most once, and on seeing what they say. -/
theorem C50_order : ∀ os : List Seen, ∃ ev, ev <+ os ∧ InOrder (Phase.waiting.reports os) ev
  | [] => ⟨[], .slnil, .nothing⟩
  | .nothing :: os => by
    obtain ⟨ev, h1, h2⟩ := C50_order os
    exact ⟨ev, h1.cons _, h2⟩
  | .call id dir stat mode :: os => by
    rw [Phase.reports]
    rcases step_waiting id dir stat mode with ⟨rfl, hs, h⟩ | ⟨_, h⟩
    · rw [h]
      rcases reports_ringing id os with h1 | ⟨h1, h2⟩ | ⟨i, m, ⟨h1, h2⟩ | ⟨h1, h2⟩⟩ <;> simp only [h1]
      · exact ⟨[.call id 0 stat mode], by simp, .initiated hs⟩
      · exact ⟨_, h2.cons₂ _, .rejected hs⟩
      · exact ⟨_, h2.cons₂ _, .answered hs⟩
      · exact ⟨_, h2.cons₂ _, .ended hs⟩
    · rw [h]
      obtain ⟨ev, h1, h2⟩ := C50_order os
      exact ⟨ev, h1.cons _, h2⟩

/-- A report that the call is initiated wakes the thread that dials, and has no effect when none waits. -/
theorem C50_initiated (id mode : Nat) (s : St) : perform (some (.initiated id mode)) env s =
    (.ok (), if s.dialEvent.isSome then { s with dialResponse := some ((id : Int), (mode : Int)), dialEvent := some true } else s) := by
  unfold perform handleCallInitiated
  dsimp only
  rw [run_bind, run_get]
  dsimp only
  split <;> rfl

/-- A report that the call is answered marks the call with this id, whose status callback is called. Without such a call the thread ends. -/
theorem C50_answered {s : St} {id i : Nat} {c : CallObj} (hi : dictGet s.activeCalls (id : Int) = some i) (hc : s.calls[i]? = some c) :
    ∃ s1, perform (some (.answered id)) env s = (.ok (), s1) ∧ s1.calls = s.calls.set i { c with answered := true } ∧
      s1.callbacks = (if c.callback then .callStatus i :: s.callbacks else s.callbacks) := by
  unfold perform handleCallAnswered
  simp only [run_bind, run_get, hi, setAnswered_run hc]
  exact ⟨_, rfl, rfl, rfl⟩

theorem C50_answered_unknown {s : St} {id : Nat} (hi : dictGet s.activeCalls (id : Int) = none) : perform (some (.answered id)) env s = (.error .keyError, s) := by
  unfold perform handleCallAnswered
  simp only [run_bind, run_get, hi]
  rfl

/-- A modem that shows a call dialling, alerting, active, and then none. -/
def pollModem : Env := modemWith fun log =>
  if log.head? = some py!"AT+CLCC\r" then
    match log.length with
    | 2 => some (.lines [py!"+CLCC: 1,0,2,0,0,\"12\",129", py!"OK"])
    | 3 => some (.lines [py!"+CLCC: 1,0,3,0,0,\"12\",129", py!"OK"])
    | 4 => some (.lines [py!"+CLCC: 1,0,0,0,0,\"12\",129", py!"OK"])
    | _ => some (.lines [py!"OK"])
  else none

/-- The call is dialled, answered and ended. -/
def pollStart : St := { alive := true, waitForCallInitUpdate := true, mustPollCallStatus := true }

def pollDialled : St := (dial py!"12" 10 true [.poll 0] pollModem pollStart).2

example : (dial py!"12" 10 true [.poll 0] pollModem pollStart).1 = .ok 0 := by decide +kernel
example : pollDialled.activeCalls = [(1, 0)] := by decide +kernel
example : pollDialled.pollers = [⟨1, some 1, 9, false⟩] := by decide +kernel

def polled (n : Nat) : St := (awaitEvent (fun _ => false) (List.replicate n (.poll 0)) pollModem pollDialled).2

example : ((polled 1).calls.map (·.answered), (polled 1).callbacks) = ([false], []) := by decide +kernel
example : ((polled 2).calls.map (·.answered), (polled 2).callbacks) = ([true], [.callStatus 0]) := by decide +kernel
example : ((polled 3).calls.map (·.active), (polled 3).activeCalls, (polled 3).callbacks) = ([false], [], [.callStatus 0, .callStatus 0]) := by decide +kernel
example : (polled 3).pollers = [⟨2, some 1, 9, true⟩] := by decide +kernel
example : Phase.waiting.reports [.call 1 0 2 0, .call 1 0 3 0, .call 1 0 0 0, .nothing] = [.initiated 1 0, .answered 1, .ended 1] := by decide +kernel

end Gsm
