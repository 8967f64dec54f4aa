import Verif.Lemmas.PolledCall
import Verif.Props.Clock
/-! # C113: a call whose status is polled follows the line -/
namespace Gsm
open M Spec

variable {env : Env} {wait : List PyStr → Nat}

theorem begins_watched {k i id : Nat} {c : CallObj} {s : St} (h : BeginsCall k i id c s) : Watched k i id c s.calls s.activeCalls .begun s := by
  obtain ⟨p, h1, h2, h3, h4, h5⟩ := h.thread
  have hc : atStage c .begun = c := by
    have h6 := h.active
    have h7 := h.unanswered
    cases c; simp_all [atStage]
  refine ⟨h.alive, ?_, rfl, ⟨p, h1, .inr ⟨h5, .ringing id, ⟨h2, h3, h4⟩, .inl rfl, fun _ => rfl, by simp⟩⟩⟩
  rw [hc]
  obtain ⟨hi, rfl⟩ := List.getElem?_eq_some_iff.1 h.object
  exact (List.set_getElem_self hi).symm

/-- After any history of a call, its object and the table show the last stage at which the program looked or
acted, nothing else in them has changed, and the status callback was called once for each change of stage. -/
theorem C113_follows [PyUnicode] (hd : 0 < env.depth) {k i id : Nat} {c : CallObj} {s s' : St} {sts : List Stage} {st : Stage} (h : BeginsCall k i id c s)
    (hl : PolledLife env k i id .begun s sts st s') :
    s'.calls = s.calls.set i (atStage c st) ∧ s'.activeCalls = tableAt s.activeCalls id st ∧
      toldBack s'.callbacks = List.replicate (if c.callback then stageChanges .begun sts else 0) i ++ toldBack s.callbacks := by
  have hw := begins_watched h
  obtain ⟨g1, g2⟩ := watched_life hd ⟨h.object, h.numbered, h.outgoing, h.table⟩ hl hw
  exact ⟨g1.calls, g1.table, g2⟩

/-! ### The beginning -/

/-- A round of a thread that has not seen the call yet. -/
theorem waiting_round (hd : 0 < env.depth) {s : St} {k : Nat} {p : Poller} (hp : s.pollers[k]? = some p) (ha : s.alive = true) (ht : 0 < p.timeLeft) (he : p.expectedState = 0)
    (hdn : p.done = false) :
    (∃ o s1 p' e r, OnlyLog s s1 ∧ Queried env.reply s.log s1.log o ∧ ((Event.poll k).run env s).2 = { s1 with dialEvent := e, dialResponse := r, pollers := s1.pollers.set k p' } ∧
      PhaseIs p' (Phase.step .waiting o).1 ∧ p'.timeLeft = p.timeLeft - 1) ∨
    (∃ s1, OnlyLog s s1 ∧ QueryFails env.reply s.log s1.log ∧ ((Event.poll k).run env s).2 = { s1 with pollers := s1.pollers.set k { p with done := true } }) := by
  have hph : PhaseIs p .waiting := ⟨he, hdn⟩
  rcases C50_round hd ha ht hph (by simp) with ⟨o, s1, g1, g2, g3, g4, g5⟩ | ⟨s1, e, g1, g2, g3⟩
  · left
    have hrun : ∃ e r, perform (Phase.step .waiting o).2 env s1 = (.ok (), { s1 with dialEvent := e, dialResponse := r }) := by
      have hsame : ∃ e r, (Except.ok (), s1) = ((Except.ok (), { s1 with dialEvent := e, dialResponse := r }) : Except PyErr Unit × St) := ⟨s1.dialEvent, s1.dialResponse, rfl⟩
      cases o with
      | nothing => exact hsame
      | call id dir stat mode =>
        rcases step_waiting id dir stat mode with ⟨rfl, -, h⟩ | ⟨-, h⟩ <;> rw [h]
        · rw [C50_initiated]
          split
          · exact ⟨_, _, rfl⟩
          · exact hsame
        · exact hsame
    obtain ⟨e, r, hrun⟩ := hrun
    rw [hrun] at g3 g4
    obtain ⟨p', h1, h2, h3⟩ := g4 rfl
    exact ⟨o, s1, p', e, r, g1, g2, pollEvent_ok hp (Prod.ext h1 g3), h2, h3⟩
  · right
    exact ⟨s1, g1, g2, pollEvent_error hp g3⟩

theorem awaits_thread (hd : 0 < env.depth) {k : Nat} : ∀ (es : List Event) {s s2 : St} {a b : Nat}, AwaitsCall env s es s2 (some (a, b)) → (∀ e ∈ es, e = .poll k) → s.alive = true →
    (∃ p, s.pollers[k]? = some p ∧ (p.done = true ∨ p.expectedState = 0 ∧ es.length < p.timeLeft)) →
    s2.alive = true ∧ s2.calls = s.calls ∧ s2.activeCalls = s.activeCalls ∧ ∃ p, s2.pollers[k]? = some p ∧ PhaseIs p (.ringing a) ∧ 0 < p.timeLeft
  | [], s, s2, a, b, h, _, _, _ => by cases h
  | e :: es, s, s2, a, b, h, hes, ha, ⟨p, hp, hpp⟩ => by
    obtain rfl := hes e (by simp)
    have hk : k < s.pollers.length := (List.getElem?_eq_some_iff.1 hp).1
    have hquiet : p.done = true → ((Event.poll k).run env s).2 = { s with pollers := s.pollers.set k { p with done := true } } :=
      fun hdn => pollEvent_ok hp (C50_quiet (.inr (.inr hdn)))
    cases h with
    | told ht =>
      cases ht with
      | poll g1 g2 g3 g4 g5 g6 g7 =>
        rw [hp] at g1
        cases g1
        have hlt : es.length + 1 < p.timeLeft := by
          rcases hpp with hpp | ⟨-, hpp⟩
          · rw [g3] at hpp; cases hpp
          · simpa using hpp
        rcases waiting_round hd hp ha g4 g5 g3 with ⟨o, s1, p', e, r, f1, f2, f3, f4, f5⟩ | ⟨s1, f1, f2, f3⟩
        · rw [f3] at g6 ⊢
          have := queried_unique g6 f2
          subst this
          obtain ⟨l, w, rfl⟩ := f1
          refine ⟨ha, rfl, rfl, p', by simp [hk], ?_, by omega⟩
          rcases g7 with rfl | rfl <;> exact f4
        · rw [f3] at g6
          rcases g6 with ⟨g6, _⟩ | ⟨_, _, g6⟩
          · exact (trans_same g6 f2.1).elim
          · cases g6
    | other hn hrest =>
      have hes' : ∀ e ∈ es, e = .poll k := fun e he => hes e (by simp [he])
      by_cases hdn : p.done = true
      · rw [hquiet hdn] at hrest
        have := awaits_thread hd es hrest hes' ha ⟨{ p with done := true }, by simp [hk], .inl rfl⟩
        exact this
      · obtain ⟨g5, hlt⟩ := hpp.resolve_left hdn
        have g3 : p.done = false := by simpa using hdn
        simp only [List.length_cons] at hlt
        rcases waiting_round hd hp ha (by omega) g5 g3 with ⟨o, s1, p', e, r, f1, f2, f3, f4, f5⟩ | ⟨s1, f1, f2, f3⟩
        · have hw : PhaseIs p' .waiting := by
            cases o with
            | nothing => exact f4
            | call id dir stat mode =>
              rcases step_waiting id dir stat mode with ⟨rfl, hs, h⟩ | ⟨-, h⟩
              · refine absurd (TellsCall.poll hp ha g3 (by omega) g5 ?_ hs) (hn id mode)
                rw [f3]; exact f2
              · rw [h] at f4; exact f4
          rw [f3] at hrest
          obtain ⟨l, w, rfl⟩ := f1
          have := awaits_thread hd es hrest hes' ha ⟨p', by simp [hk], .inr ⟨hw.1, by omega⟩⟩
          exact this
        · rw [f3] at hrest
          obtain ⟨l, w, rfl⟩ := f1
          have := awaits_thread hd es hrest hes' ha ⟨{ p with done := true }, by simp [hk], .inl rfl⟩
          exact this

/-- A call that `dial` returns, while its thread polled, has begun. -/
theorem C113_dial (hd : 0 < env.depth) {s s' : St} {number : PyStr} {timeout : Nat} {cb : Bool} {during : List Event} {i : Nat} (ha : s.alive = true)
    (hw : s.waitForCallInitUpdate = true) (hm : s.mustPollCallStatus = true) (hdur : ∀ e ∈ during, e = .poll s.pollers.length)
    (ht : during.length < if timeout = 0 then 1999998 else timeout) (h : dial number timeout cb during env s = (.ok i, s')) :
    ∃ id type : Nat, i = s.calls.length ∧ s'.calls = s.calls ++ [newCall number cb id type] ∧ (id ≠ 0 → BeginsCall s.pollers.length i id (newCall number cb id type) s') := by
  obtain ⟨ok, s1, ⟨l, w, rfl⟩, -, h3, h4⟩ := C66_dial_waiting hd hw number timeout cb during
  cases ok with
  | false =>
    obtain ⟨e, h5⟩ := h3 rfl
    rw [h5] at h; cases h
  | true =>
    obtain ⟨s2, r, h5, h6⟩ := h4 rfl
    rw [h6] at h
    cases r with
    | none => cases h
    | some ab =>
      obtain ⟨a, b⟩ := ab
      have hwp : withPoller { s with log := l, writeWait := w, dialEvent := some false } timeout =
          { s with log := l, writeWait := w, dialEvent := some false, pollers := s.pollers ++ [⟨0, none, if timeout = 0 then 2 * 999999 else timeout, false⟩] } := by
        unfold withPoller; rw [if_pos hm]
      rw [hwp] at h5
      obtain ⟨g1, g2, g3, p, g4, g5, g6⟩ := awaits_thread hd during h5 hdur ha ⟨⟨0, none, if timeout = 0 then 2 * 999999 else timeout, false⟩, by simp, .inr ⟨rfl, ht⟩⟩
      dsimp only at g2 g3
      cases h
      refine ⟨a, b, by rw [g2], by simp [addCall, g2], fun h0 => ?_⟩
      exact ⟨g1, by simp [addCall], ⟨rfl, h0⟩, rfl, rfl, rfl, dictGet_setSelf _ _ _, ⟨p, g4, g5.1, g5.2.1, g5.2.2, g6⟩⟩

/-! ### The time -/

/-- A round takes at most as long as the modem lets wait, and the pause that busy answers have left. -/
theorem roundTime_le {T k : Nat} {s : St} (hb : NeverBusy env.reply) (hT : ∀ log, wait log ≤ T) : roundTime env wait k s ≤ T + 100 * s.writeWait ∧
    ((Event.poll k).run env s).2.writeWait = s.writeWait := by
  let _ : PyUnicode := asciiUnicode
  unfold roundTime
  cases hp : s.pollers[k]? with
  | none => exact ⟨by simp, by simp only [Event.run, hp]⟩
  | some p =>
    dsimp only
    have h1 := C104_calm_limit (wait := wait) (lines := 0) hb hT (.poll 1 p) rfl (by simp [deletesListed]) s
    obtain ⟨h2, -⟩ := C104_calm (wait := wait) hb (.poll 1 p) rfl s
    simp only [taskCommands, Task.prog, Nat.one_mul] at h1 h2
    have h3 : Prog.poll 1 p = Prog.pollRound p >>= fun p' => if p'.done = true then pure () else Prog.poll 0 p' := rfl
    rw [h3, Prog.elapsed_bind] at h1
    rw [h3, Prog.run_bind, Prog.same_pollRound] at h2
    refine ⟨by omega, ?_⟩
    cases hr : pollRound p env s with
    | mk r s1 =>
      rw [hr] at h2
      cases r with
      | error e => rw [pollEvent_error hp hr]; exact h2
      | ok p' =>
        rw [pollEvent_ok hp hr]
        dsimp only at h2
        have : (Prog.run env (if p'.done = true then pure () else Prog.poll 0 p') s1).2 = s1 := by split <;> rfl
        rw [this] at h2
        exact h2

/-- The queries follow one another at half a second, and the time that a query takes. -/
theorem C113_pace {T k : Nat} (hb : NeverBusy env.reply) (hT : ∀ log, wait log ≤ T) : ∀ (n t : Nat) (s : St) (j m : Nat), (pollTimes env wait k n t s)[j]? = some m →
    t + 500 * (j + 1) ≤ m ∧ m ≤ t + 500 * (j + 1) + j * (T + 100 * s.writeWait)
  | 0, t, s, j, m, h => by simp [pollTimes] at h
  | n + 1, t, s, j, m, h => by
    unfold pollTimes at h
    split at h
    · obtain ⟨h1, h2⟩ := roundTime_le (k := k) (s := s) hb hT
      cases j with
      | zero => simp at h; omega
      | succ j =>
        have := C113_pace hb hT n _ _ j m (by simpa using h)
        rw [h2] at this
        have h3 : (j + 1) * (T + 100 * s.writeWait) = j * (T + 100 * s.writeWait) + (T + 100 * s.writeWait) := by rw [Nat.succ_mul]
        rw [h3]
        generalize j * (T + 100 * s.writeWait) = x at this ⊢
        generalize T + 100 * s.writeWait = y at this h1 ⊢
        generalize roundTime env wait k s = z at this h1
        obtain ⟨a1, a2⟩ := this
        clear h2 h3 h
        rw [Nat.mul_add 500 (j + 1) 1]
        generalize 500 * (j + 1) = q at a1 a2 ⊢
        exact ⟨by omega, by omega⟩
    · simp at h

theorem done_polls {k i id : Nat} {c : CallObj} {calls : List CallObj} {d : List (Int × Nat)} {s : St} (n : Nat) (h : Watched k i id c calls d .over s) (hn : polling k s = false) :
    afterPolls env k n s = s := by
  obtain ⟨p, hp, hph⟩ := h.thread
  have hdn : p.done = true := by
    unfold polling at hn
    rw [hp] at hn
    cases hd : p.done with
    | true => rfl
    | false =>
      rcases hph with ⟨h1, -⟩ | ⟨h1, -⟩
      · rw [hd] at h1; cases h1
      · simp [h.alive, hd] at hn; omega
  have hrun : ((Event.poll k).run env s).2 = s := by
    rw [pollEvent_ok hp (C50_quiet (.inr (.inr hdn)))]
    have : ({ p with done := true } : Poller) = p := by cases p; simp_all
    rw [this]
    have hset : s.pollers.set k p = s.pollers := by
      obtain ⟨hi, rfl⟩ := List.getElem?_eq_some_iff.1 hp
      exact List.set_getElem_self hi
    rw [hset]
  induction n with
  | zero => rfl
  | succ n ih => simp only [afterPolls, hrun]; exact ih

theorem behind (hd : 0 < env.depth) {k i id T : Nat} {c : CallObj} {calls : List CallObj} {d : List (Int × Nat)} {line : Nat → Stage} (ho : OneCall i id c calls d)
    (hb : NeverBusy env.reply) (hT : ∀ log, wait log ≤ T) (hmono : ∀ a b, a ≤ b → (line a).rank ≤ (line b).rank) :
    ∀ (n t t0 : Nat) (s : St), Watched k i id c calls d (line t0) s → t0 ≤ t → t ≤ t0 + (T + 100 * s.writeWait) → Truthful env wait k id line n t s →
      Watched k i id c calls d (line ((t0 :: pollTimes env wait k n t s).getLast (by simp))) (afterPolls env k n s) ∧
        (line ((t0 :: pollTimes env wait k n t s).getLast (by simp)) ≠ .over → ∃ m, (pollTimes env wait k (n + 1) t s)[n]? = some m ∧
          (t0 :: pollTimes env wait k n t s).getLast (by simp) + 500 ≤ m ∧ m ≤ (t0 :: pollTimes env wait k n t s).getLast (by simp) + 500 + (T + 100 * s.writeWait))
  | 0, t, t0, s, h, h1, h2, _ => by
    refine ⟨h, fun hne => ⟨t + 500, ?_, by simp [pollTimes]; omega, by simp [pollTimes]; omega⟩⟩
    have hpoll : polling k s = true := by
      obtain ⟨p, hp, hph⟩ := h.thread
      rcases hph with ⟨-, h3⟩ | ⟨h3, ph, h4, h5, -⟩
      · exact absurd h3 hne
      · have : p.done = false := by rcases h5 with rfl | rfl <;> exact h4.2.2
        simp [polling, hp, this, h.alive, h3]
    simp [pollTimes, hpoll]
  | n + 1, t, t0, s, h, h1, h2, ht => by
    by_cases hpoll : polling k s = true
    · obtain ⟨⟨o, g1, g2⟩, g3⟩ := ht hpoll
      obtain ⟨f1, f2⟩ := roundTime_le (k := k) (s := s) hb hT
      obtain ⟨w1, -⟩ := watched_looks hd ho h (hmono t0 (t + 500) (by omega)) g1 g2
      have ih := behind hd ho hb hT hmono n (t + 500 + roundTime env wait k s) (t + 500) _ w1 (by omega) (by rw [f2]; omega) g3
      rw [f2] at ih
      have e1 : ∀ n, pollTimes env wait k (n + 1) t s = (t + 500) :: pollTimes env wait k n (t + 500 + roundTime env wait k s) ((Event.poll k).run env s).2 := by
        intro n; simp only [pollTimes, if_pos hpoll]
      simp only [e1 n, e1 (n + 1), List.getLast_cons_cons, List.getElem?_cons_succ]
      exact ih
    · have hov : line t0 = .over := by
        obtain ⟨p, hp, hph⟩ := h.thread
        rcases hph with ⟨-, h3⟩ | ⟨h3, ph, h4, h5, -⟩
        · exact h3
        · have : p.done = false := by rcases h5 with rfl | rfl <;> exact h4.2.2
          simp [polling, hp, this, h.alive, h3] at hpoll
      have e1 : pollTimes env wait k (n + 1) t s = [] := by rw [pollTimes, if_neg hpoll]
      simp only [e1, List.getLast_singleton]
      refine ⟨?_, fun hne => absurd hov hne⟩
      rw [hov] at h ⊢
      rw [done_polls (n + 1) h (by simpa using hpoll)]
      exact h

/-- If the modem lists what is on the line, then after any number of rounds the object shows the stage of the
call at the time of the last query, and the next query comes half a second later, or as much later as a query
takes: the object is never further behind. -/
theorem C113_behind (hd : 0 < env.depth) {k i id T t t0 : Nat} {c : CallObj} {s : St} {line : Nat → Stage} (hb : NeverBusy env.reply) (hT : ∀ log, wait log ≤ T)
    (hmono : ∀ a b, a ≤ b → (line a).rank ≤ (line b).rank) (h : BeginsCall k i id c s) (h0 : line t0 = .begun) (h1 : t0 ≤ t) (h2 : t ≤ t0 + (T + 100 * s.writeWait)) (n : Nat)
    (ht : Truthful env wait k id line n t s) : ∃ m, m = (t0 :: pollTimes env wait k n t s).getLast (by simp) ∧
      (afterPolls env k n s).calls = s.calls.set i (atStage c (line m)) ∧ (afterPolls env k n s).activeCalls = tableAt s.activeCalls id (line m) ∧
      (line m ≠ .over → ∃ m', (pollTimes env wait k (n + 1) t s)[n]? = some m' ∧ m + 500 ≤ m' ∧ m' ≤ m + 500 + (T + 100 * s.writeWait)) := by
  have hw := begins_watched h
  rw [← h0] at hw
  obtain ⟨g1, g2⟩ := behind hd ⟨h.object, h.numbered, h.outgoing, h.table⟩ hb hT hmono n t t0 s hw h1 h2 ht
  exact ⟨_, rfl, g1.calls, g1.table, g2⟩

/-! ### A call that is made, answered, and ended by the other end -/

/-- A modem that answers the queries one after the other with these lines, and then lists no calls. -/
def listingModem (answers : List (List PyStr)) : Env := modemWith fun log =>
  if log.head? = some py!"AT+CLCC\r" then some (.lines ((answers[(log.filter (· = py!"AT+CLCC\r")).length - 1]?).getD [py!"OK"])) else none

def ringingLine : PyStr := py!"+CLCC: 1,0,3,0,0,\"12\",129"
def activeLine : PyStr := py!"+CLCC: 1,0,0,0,0,\"12\",129"

def callModem : Env := listingModem [[py!"OK"], [ringingLine, py!"OK"], [ringingLine, py!"OK"], [activeLine, py!"OK"]]
def callMade : St := (dial py!"12" 10 true [.poll 0, .poll 0] callModem pollStart).2

example : (dial py!"12" 10 true [.poll 0, .poll 0] callModem pollStart).1 = .ok 0 := by decide +kernel

theorem callMade_begins : BeginsCall 0 0 1 (newCall py!"12" true 1 0) callMade :=
  ⟨by decide +kernel, by decide +kernel, by decide +kernel, by decide +kernel, by decide +kernel, by decide +kernel, by decide +kernel, ⟨1, some 1, 8, false⟩, by decide +kernel⟩

attribute [local instance] asciiUnicode in
example : ∃ s', PolledLife callModem 0 0 1 .begun callMade [.begun, .answered, .over, .over] .over s' :=
  ⟨_, .next (.looks (o := .call 1 0 3 0) (by decide) (by simp [Stage.Listed]) (queried_of_run (by decide) (by decide +kernel)))
    (.next (.looks (o := .call 1 0 0 0) (by decide) (by simp [Stage.Listed]) (queried_of_run (by decide) (by decide +kernel)))
      (.next (.looks (o := .nothing) (by decide) (by simp [Stage.Listed]) (queried_of_run (by decide) (by decide +kernel)))
        (.next (.hungUp (by decide +kernel)) .start)))⟩

example : ((afterPolls callModem 0 3 callMade).calls.map fun c => (c.active, c.answered), (afterPolls callModem 0 3 callMade).callbacks) =
    ([(false, false)], [.callStatus 0, .callStatus 0]) := by decide +kernel
example : stageChanges .begun [.begun, .answered, .over, .over] = 2 := by decide
example : pollTimes callModem (fun _ => 30) 0 9 0 callMade = [500, 1030, 1560] := by decide +kernel

/-- On the line, the call is answered after 0.7 s, and over after 1.2 s. -/
def callLife (t : Nat) : Stage := if t < 700 then .begun else if t < 1200 then .answered else .over

example : Truthful callModem (fun _ => 30) 0 1 callLife 3 0 callMade := by
  refine fun _ => ⟨⟨.call 1 0 3 0, ⟨rfl, rfl, .inr rfl⟩, queried_of_run (by decide) (by decide +kernel)⟩, fun _ => ⟨⟨.call 1 0 0 0, ?_, queried_of_run (by decide) (by decide +kernel)⟩,
    fun _ => ⟨⟨.nothing, ?_, queried_of_run (by decide) (by decide +kernel)⟩, trivial⟩⟩⟩
  · have : roundTime callModem (fun _ => 30) 0 callMade = 30 := by decide +kernel
    rw [this]
    exact ⟨rfl, rfl, rfl⟩
  · have h1 : roundTime callModem (fun _ => 30) 0 callMade = 30 := by decide +kernel
    have h2 : roundTime callModem (fun _ => 30) 0 ((Event.poll 0).run callModem callMade).2 = 30 := by decide +kernel
    rw [h1, h2]
    trivial

/-! ### What polling does not see -/

/-- A call that is answered before the first query is never noticed: `dial` raises an exception after its time, there
is no object for the call, and it is not hung up. -/
theorem C113_answered_at_once_violated :
    let m := listingModem (List.replicate 40 [activeLine, py!"OK"])
    let r := dial py!"12" 10 true (List.replicate 10 (.poll 0)) m pollStart
    r.1 = .error (.timeout none) ∧ r.2.calls = [] ∧ r.2.log = List.replicate 10 py!"AT+CLCC\r" ++ [py!"ATD12;\r"] := by decide +kernel

/-- A line without the number, which 27.007 allows, is taken for the end of the call; so is a query that is not
answered in time. The thread looks no more, though the call goes on. -/
theorem C113_bare_line_violated :
    let m := listingModem [[ringingLine, py!"OK"], [activeLine, py!"OK"], [py!"+CLCC: 1,0,0,0,0", py!"OK"], [activeLine, py!"OK"]]
    let s := (dial py!"12" 10 true [.poll 0] m pollStart).2
    (afterPolls m 0 1 s).calls.map (·.answered) = [true] ∧ (afterPolls m 0 2 s).calls.map (·.active) = [false] ∧ (afterPolls m 0 2 s).activeCalls = [] ∧
      afterPolls m 0 5 s = afterPolls m 0 2 s ∧ (clccQuery m (afterPolls m 0 2 s)).1 = .ok (some (1, 0, 0, 0)) := by decide +kernel

theorem C113_late_answer_violated :
    let m := modemWith fun log => if log.head? = some py!"AT+CLCC\r" then some (match log.length with | 2 => .lines [ringingLine, py!"OK"] | 4 => .timeout none | _ => .lines [activeLine, py!"OK"]) else none
    let s := (dial py!"12" 10 true [.poll 0] m pollStart).2
    (afterPolls m 0 1 s).calls.map (·.answered) = [true] ∧ (afterPolls m 0 2 s).calls.map (·.active) = [false] ∧ (afterPolls m 0 2 s).activeCalls = [] ∧
      afterPolls m 0 5 s = afterPolls m 0 2 s ∧ (clccQuery m (afterPolls m 0 2 s)).1 = .ok (some (1, 0, 0, 0)) := by decide +kernel

/-- Only the first line is looked at: while another call is listed first, `dial` does not see the call that it has made. -/
theorem C113_hidden_violated :
    let m := listingModem (List.replicate 40 [py!"+CLCC: 1,1,4,0,0,\"99\",129", py!"+CLCC: 2,0,3,0,0,\"12\",129", py!"OK"])
    let r := dial py!"12" 10 true (List.replicate 10 (.poll 0)) m pollStart
    r.1 = .error (.timeout none) ∧ r.2.calls = [] := by decide +kernel

/-- A call that is hung up and dialled again within half a second is watched by both threads: the callback is called
twice for its answer. -/
theorem C113_redial_violated :
    let m := listingModem (List.replicate 3 [ringingLine, py!"OK"] ++ List.replicate 2 [activeLine, py!"OK"])
    let s1 := (dial py!"12" 10 true [.poll 0] m pollStart).2
    let s2 := (hangup 0 m s1).2
    let s3 := (dial py!"12" 10 true [.poll 0, .poll 1] m s2).2
    let s4 := ((Event.poll 1).run m ((Event.poll 0).run m s3).2).2
    s2.callbacks = [.callStatus 0] ∧ s3.activeCalls = [(1, 1)] ∧ s4.calls.map (fun c => (c.active, c.answered)) = [(false, false), (true, true)] ∧
      s4.callbacks = [.callStatus 1, .callStatus 1, .callStatus 0] := by decide +kernel

end Gsm
