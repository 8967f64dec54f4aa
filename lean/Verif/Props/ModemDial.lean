import Verif.Spec.Dial
import Verif.Lemmas.DialFrame
import Verif.Props.ModemProgress
import Verif.Props.ModemPolling
/-! # Property C66: dialling -/
namespace Gsm
open M Spec

variable {env : Env}

/-! ### Events while `dial` waits -/

theorem first_recognised (t : List (List Rx × CallHandler)) : ∀ batch : List PyStr, (∀ l ∈ batch, ∀ d, ¬ Announces t l d) ∨
    ∃ pre line post d, batch = pre ++ line :: post ∧ (∀ l ∈ pre, ∀ d, ¬ Announces t l d) ∧ Announces t line d
  | [] => .inl (by simp)
  | l :: ls => by
    by_cases h : ∃ d, Announces t l d
    · obtain ⟨d, hd⟩ := h
      exact .inr ⟨[], l, ls, d, rfl, by simp, hd⟩
    · have h0 : ∀ d, ¬ Announces t l d := fun d hd => h ⟨d, hd⟩
      rcases first_recognised t ls with h1 | ⟨pre, line, post, d, rfl, h1, h2⟩
      · exact .inl fun x hx => by rcases List.mem_cons.1 hx with rfl | hx; exacts [h0, h1 x hx]
      · exact .inr ⟨l :: pre, line, post, d, rfl, fun x hx => by rcases List.mem_cons.1 hx with rfl | hx; exacts [h0, h1 x hx], h2⟩

theorem split_unique {t : List (List Rx × CallHandler)} {pre pre' post post' : List PyStr} {line line' : PyStr} {d d' : Dispatch}
    (h : pre ++ line :: post = pre' ++ line' :: post') (h1 : ∀ l ∈ pre, ∀ d, ¬ Announces t l d) (h2 : Announces t line d)
    (h1' : ∀ l ∈ pre', ∀ d, ¬ Announces t l d) (h2' : Announces t line' d') : line = line' := by
  induction pre generalizing pre' with
  | nil =>
    cases pre' with
    | nil => simpa using (List.cons.inj h).1
    | cons a as =>
      obtain ⟨rfl, _⟩ := List.cons.inj h
      exact absurd h2 (h1' _ (by simp) _)
  | cons a as ih =>
    cases pre' with
    | nil =>
      obtain ⟨rfl, _⟩ := List.cons.inj h
      exact absurd h2' (h1 _ (by simp) _)
    | cons b bs => exact ih (List.cons.inj h).2 (fun l hl => h1 l (by simp [hl])) (fun l hl => h1' l (by simp [hl]))

theorem says_announces {t : CallTable} {line : PyStr} {p : Progress} (h : Says t line p) : ∃ d, Announces (callTable t) line d := by
  obtain ⟨hd, g, ha, _⟩ := says_run (env := goodModem) h
  exact ⟨_, ha⟩

/-- A notification, while `dial` waits. -/
theorem notify_dial {s : St} (h : s.dialEvent = some false) (batch : List PyStr) (s' : St) :
    (∃ a b, TellsCall env s s' (.notify batch) a b ∧ (handleNotification batch env s).2.dialEvent = some true ∧
      (handleNotification batch env s).2.dialResponse = some ((a : Int), (b : Int))) ∨
    ((∀ a b, ¬ TellsCall env s s' (.notify batch) a b) ∧ dialState (handleNotification batch env s).2 = dialState s) := by
  rcases first_recognised (callTable s.callStatusUpdates) batch with h0 | ⟨pre, line, post, d, rfl, h1, h2⟩
  · refine .inr ⟨?_, by rw [C43_none h0]⟩
    rintro a b ht
    generalize hb : Event.notify batch = e at ht
    cases ht with
    | line h1 h2 =>
      cases hb
      obtain ⟨d, hd⟩ := says_announces h2
      exact h0 _ (by simp) d hd
    | poll => cases hb
  · have hno : ∀ {q}, Says s.callStatusUpdates line q → (∀ a b, q ≠ .started a b) → ∀ a b, ¬ TellsCall env s s' (.notify (pre ++ line :: post)) a b := by
      intro q hq hn a b ht
      generalize hb : Event.notify (pre ++ line :: post) = e at ht
      cases ht with
      | line h1' h2' =>
        obtain ⟨d', hd'⟩ := says_announces h2'
        obtain rfl := split_unique (Event.notify.inj hb) h1 h2 h1' hd'
        exact hn a b (C65_unique hq h2')
      | poll => cases hb
    have hother : (∀ h g, d ≠ .call h g) → ∀ a b, ¬ TellsCall env s s' (.notify (pre ++ line :: post)) a b := by
      intro hn a b ht
      generalize hb : Event.notify (pre ++ line :: post) = e at ht
      cases ht with
      | line h1' h2' =>
        obtain ⟨hd, g, ha, _⟩ := says_run (env := env) h2'
        obtain rfl := split_unique (Event.notify.inj hb) h1 h2 h1' ha
        exact hn _ _ (C43_unique h2 ha)
      | poll => cases hb
    rw [C43_first h1 h2]
    cases d with
    | ring => exact .inr ⟨hother (by simp), ((df_incoming _).run s).2⟩
    | cmti => exact .inr ⟨hother (by simp), ((df_received _).run s).2⟩
    | cusd => exact .inr ⟨hother (by simp), ((df_ussd _).run s).2⟩
    | cdsi => exact .inr ⟨hother (by simp), ((df_statusReport _).run s).2⟩
    | call hh g =>
      obtain ⟨p, hp⟩ := C65_lines.1 ⟨hh, g, h2⟩
      obtain ⟨hd', g', ha, hr⟩ := says_run (env := env) hp
      have := C43_unique h2 ha
      simp only [Dispatch.call.injEq] at this
      obtain ⟨rfl, rfl⟩ := this
      simp only [handlerOf, hr]
      cases p with
      | started a b =>
        refine .inl ⟨a, b, .line h1 hp, ?_⟩
        simp only [Progress.run, initiated_run, h]
        exact ⟨rfl, rfl⟩
      | answered a => exact .inr ⟨hno hp (by simp), ((df_answered _).run s).2⟩
      | someAnswered => exact .inr ⟨hno hp (by simp), ((df_answered _).run s).2⟩
      | ended a => exact .inr ⟨hno hp (by simp), ((df_ended _ _ _).run s).2⟩
      | someRejected => exact .inr ⟨hno hp (by simp), ((df_ended _ _ _).run s).2⟩

theorem queried_unique {reply : List PyStr → Reply} {old log : List PyStr} {id dir stat mode : Nat} {o : Seen} (h : Queried reply old log (.call id dir stat mode))
    (h' : Queried reply old log o) : o = .call id dir stat mode := by
  rcases h with ⟨_, h⟩ | ⟨_, _, h⟩
  · cases hr : reply log with
    | timeout d => rw [hr] at h; cases h
    | lines ls =>
      rw [hr] at h
      cases ls with
      | nil => cases h
      | cons l ls =>
        rcases h' with ⟨_, h'⟩ | ⟨_, ⟨d, h'⟩, _⟩
        · rw [hr] at h'
          cases o with
          | nothing => exact absurd h (h' _ _ _ _)
          | call a b c e =>
            obtain ⟨rfl, rfl, rfl, rfl⟩ := callLine_unique h h'
            rfl
        · rw [hr] at h'; cases h'
  · cases h

theorem trans_one {reply : List PyStr → Reply} {c : PyStr} {old log : List PyStr} {ok : Bool} (h : Transmission reply [c] old log ok) :
    ∃ k, log = List.replicate k c ++ old ∧ (ok = true ↔ 0 < k ∧ Accepted reply log) := by
  cases h with
  | next h1 h2 h3 h4 => cases h4; exact ⟨_, rfl, by simp [h1, h3]⟩
  | stop h1 h2 => exact ⟨_, rfl, by simpa using h2⟩

theorem trans_same {reply : List PyStr → Reply} {c : PyStr} {old log : List PyStr} (h : Transmission reply [c] old log true) (h' : Transmission reply [c] old log false) : False := by
  obtain ⟨k, h1, h2⟩ := trans_one h
  obtain ⟨k', h1', h2'⟩ := trans_one h'
  have : k = k' := by
    rw [h1] at h1'
    have := congrArg List.length h1'
    simpa using this
  subst this
  simp at h2 h2'
  exact h2' h2.1 h2.2

/-- Does the round see the call for the first time? -/
def SeesFirst (p : Poller) : Option (Int × Int × Int × Int) → Prop
  | some (_, direction, stat, _) => p.expectedState = 0 ∧ direction = 0 ∧ (stat = 2 ∨ stat = 3)
  | none => False

theorem pollStep_other {p : Poller} {seen : Option (Int × Int × Int × Int)} (h : ¬ SeesFirst p seen) : Steps env QuietFrame (pollStep p seen) := by
  have h1 := fun c => qf_answered (env := env) c
  have h2 := fun c a b => qf_ended (env := env) c a b
  cases seen with
  | none => unfold pollStep; (steps frame_pre) <;> exact h2 _ _ _
  | some x =>
    obtain ⟨cid, dir, stat, type⟩ := x
    unfold pollStep
    dsimp only
    by_cases hd : dir = 0
    · rw [if_pos hd]
      by_cases he : p.expectedState = 0
      · rw [if_pos he]
        rw [if_neg (fun hs => h ⟨he, hd, hs⟩)]
        exact Steps.pure frame_pre _
      · rw [if_neg he]
        (steps frame_pre) <;> exact h1 _
    · rw [if_neg hd]
      exact Steps.pure frame_pre _

theorem onlyLog_dial {a b : St} (h : OnlyLog a b) : dialState b = dialState a := by obtain ⟨l, w, rfl⟩ := h; rfl

theorem pollEvent_ok {s s' : St} {k : Nat} {p p' : Poller} (hp : s.pollers[k]? = some p) (h : pollRound p env s = (.ok p', s')) :
    ((Event.poll k).run env s).2 = { s' with pollers := s'.pollers.set k p' } := by
  simp only [Event.run, hp, h]
theorem pollEvent_error {s s' : St} {k : Nat} {p : Poller} {e : PyErr} (hp : s.pollers[k]? = some p) (h : pollRound p env s = (.error e, s')) :
    ((Event.poll k).run env s).2 = { s' with pollers := s'.pollers.set k { p with done := true } } := by
  simp only [Event.run, hp, h]

theorem pollEvent_any {s s' : St} {k : Nat} {p : Poller} {r : Except PyErr Poller} (hp : s.pollers[k]? = some p) (h : pollRound p env s = (r, s')) :
    ∃ ps, ((Event.poll k).run env s).2 = { s' with pollers := ps } := by
  cases r with
  | ok p' => exact ⟨_, pollEvent_ok hp h⟩
  | error e => exact ⟨_, pollEvent_error hp h⟩

/-- A round of a polling thread, while `dial` waits. -/
theorem poll_dial (hdep : 0 < env.depth) {s : St} (h : s.dialEvent = some false) (k : Nat) :
    (∃ a b, TellsCall env s ((Event.poll k).run env s).2 (.poll k) a b ∧ ((Event.poll k).run env s).2.dialEvent = some true ∧
      ((Event.poll k).run env s).2.dialResponse = some ((a : Int), (b : Int))) ∨
    ((∀ a b, ¬ TellsCall env s ((Event.poll k).run env s).2 (.poll k) a b) ∧ dialState ((Event.poll k).run env s).2 = dialState s) := by
  cases hp : s.pollers[k]? with
  | none =>
    refine .inr ⟨fun a b ht => ?_, by simp only [Event.run, hp]⟩
    cases ht with
    | poll h1 => rw [hp] at h1; cases h1
  | some p =>
    by_cases hl : s.alive = true ∧ p.done = false ∧ 0 < p.timeLeft
    · obtain ⟨ha, hdn, htl⟩ := hl
      obtain ⟨s1, h1, ⟨o, h2, h3⟩ | ⟨h2, e, h3⟩⟩ := query_run hdep s
      · have hr := poll_live ha htl hdn h3
        have hs1 : s1.dialEvent = some false := by obtain ⟨l, w, rfl⟩ := h1; exact h
        generalize hq : (if p.expectedState = 0 then { p with timeLeft := p.timeLeft - 1 } else p) = q at hr
        have hqe : q.expectedState = p.expectedState := by rw [← hq]; split <;> rfl
        by_cases hf : SeesFirst q (seenVal o)
        · cases o with
          | nothing => cases hf
          | call id dir stat mode =>
            obtain ⟨f1, f2, f3⟩ := hf
            have f2' : dir = 0 := by omega
            have f3' : stat = 2 ∨ stat = 3 := by omega
            subst f2'
            have hps : pollStep q (seenVal (.call id 0 stat mode)) env s1 =
                (.ok { q with callId := some (id : Int), expectedState := 1 }, { s1 with dialResponse := some ((id : Int), (mode : Int)), dialEvent := some true }) := by
              simp only [seenVal, pollStep]
              rw [if_pos (by rfl), if_pos f1, if_pos f3, run_bind, initiated_run, hs1]
              rfl
            rw [hps] at hr
            have hev := pollEvent_ok hp hr
            rw [hev]
            exact .inl ⟨id, mode, .poll hp ha hdn htl (hqe ▸ f1) h2 f3', rfl, rfl⟩
        · have hfr := (pollStep_other (env := env) hf).run s1
          cases hps : pollStep q (seenVal o) env s1 with
          | mk r s2 =>
            rw [hps] at hr hfr
            obtain ⟨ps, hev⟩ := pollEvent_any hp hr
            refine .inr ⟨fun a b ht => ?_, ?_⟩
            · rw [hev] at ht
              cases ht with
              | poll g1 g2 g3 g4 g5 g6 g7 =>
                rw [hp] at g1
                cases g1
                have hlog := quiet_log hfr
                dsimp only at g6 hlog
                rw [hlog] at g6
                obtain rfl := queried_unique g6 h2
                exact hf ⟨hqe.trans g5, rfl, by omega⟩
            · rw [hev]
              exact hfr.2.trans (onlyLog_dial h1)
      · have hr : pollRound p env s = (.error e, s1) := by
          unfold pollRound
          simp only [run_bind, run_get, ha, hdn, htl, Bool.false_eq_true, not_false_eq_true, and_self, if_true, h3]
        refine .inr ⟨fun a b ht => ?_, by rw [pollEvent_error hp hr]; exact (onlyLog_dial h1 :)⟩
        rw [pollEvent_error hp hr] at ht
        cases ht with
        | poll g1 g2 g3 g4 g5 g6 g7 =>
          rcases g6 with ⟨g6, _⟩ | ⟨_, _, g6⟩
          · exact trans_same g6 h2.1
          · cases g6
    · have hq : s.alive = false ∨ p.timeLeft = 0 ∨ p.done = true := by
        cases h1 : s.alive <;> cases h2 : p.done <;> simp_all
      refine .inr ⟨fun a b ht => ?_, by rw [pollEvent_ok hp (C50_quiet hq)]; rfl⟩
      cases ht with
      | poll g1 g2 g3 g4 =>
        rw [hp] at g1
        cases g1
        exact hl ⟨g2, g3, g4⟩

theorem event_dial (hdep : 0 < env.depth) {s : St} (h : s.dialEvent = some false) (e : Event) :
    (∃ a b, TellsCall env s (e.run env s).2 e a b ∧ (e.run env s).2.dialEvent = some true ∧ (e.run env s).2.dialResponse = some ((a : Int), (b : Int))) ∨
    ((∀ a b, ¬ TellsCall env s (e.run env s).2 e a b) ∧ (e.run env s).2.dialEvent = some false) := by
  have key : ∀ {s' : St}, dialState s' = dialState s → s'.dialEvent = some false := fun hk => (congrArg Prod.fst hk).trans h
  cases e with
  | notify batch =>
    rcases notify_dial (env := env) h batch ((Event.notify batch).run env s).2 with h1 | ⟨h1, h2⟩
    · exact .inl h1
    · exact .inr ⟨h1, key h2⟩
  | poll k =>
    rcases poll_dial hdep h k with h1 | ⟨h1, h2⟩
    · exact .inl h1
    · exact .inr ⟨h1, key h2⟩

/-- The wait. -/
theorem await_dial (hdep : 0 < env.depth) : ∀ (es : List Event) {s : St}, s.dialEvent = some false →
    ∃ s' r, AwaitsCall env s es s' r ∧ awaitEvent (fun s => s.dialEvent = some true) es env s = (.ok r.isSome, s') ∧
      ∀ a b, r = some (a, b) → s'.dialResponse = some ((a : Int), (b : Int))
  | [], s, h => ⟨s, none, .over, by simp [awaitEvent, run_bind, run_get, run_pure, h], by simp⟩
  | e :: es, s, h => by
    have he : (e.run env s).1 = .ok () := by
      cases e with
      | notify => rfl
      | poll k => simp only [Event.run]; split; rfl; split <;> rfl
    have hstep : awaitEvent (fun s => s.dialEvent = some true) (e :: es) env s = awaitEvent (fun s => s.dialEvent = some true) es env (e.run env s).2 := by
      simp only [awaitEvent, run_bind, run_get, h]
      rw [if_neg (by simp), run_bind]
      cases hr : e.run env s with
      | mk r s1 => rw [hr] at he; dsimp only at he; rw [he]
    rw [hstep]
    rcases event_dial hdep h e with ⟨a, b, h1, h2, h3⟩ | ⟨h1, h2⟩
    · refine ⟨_, some (a, b), .told h1, ?_, fun _ _ h => by cases h; exact h3⟩
      cases es with
      | nil => simp [awaitEvent, run_bind, run_get, run_pure, h2]
      | cons e' es => simp [awaitEvent, run_bind, run_get, run_pure, run_ite, h2]
    · obtain ⟨s', r, h3, h4, h5⟩ := await_dial hdep es h2
      exact ⟨s', r, .other h1 h3, h4, h5⟩

theorem writeAtd_run (number : PyStr) (s : St) : ∃ ok s1, OnlyLog s s1 ∧ Dialled env.reply s.waitForAtdResponse number s.log s1.log ok ∧
    ((ok = true ∧ writeAtd number env s = (.ok (), s1)) ∨ (ok = false ∧ ∃ e, writeAtd number env s = (.error e, s1))) := by
  unfold writeAtd
  rw [run_bind, run_get]
  dsimp only
  cases hw : s.waitForAtdResponse with
  | false =>
    refine ⟨true, _, ⟨_, s.writeWait, rfl⟩, ⟨?_, rfl⟩, .inl ⟨rfl, rfl⟩⟩
    simp [atdCmd]
  | true =>
    obtain ⟨ok, s1, h1, h2, h3⟩ := write_trans (env := env) (atdCmd number) [13] s
    refine ⟨ok, s1, h1, ?_, ?_⟩
    · have : atdCmd number ++ [13] = py!"ATD" ++ number ++ py!";\r" := by simp [atdCmd]
      rw [this] at h2
      exact h2
    · rw [if_pos rfl, run_bind]
      rcases h3 with ⟨rfl, h3⟩ | ⟨rfl, e, h3⟩
      · exact .inl ⟨rfl, by rw [h3]; rfl⟩
      · exact .inr ⟨rfl, e, by rw [h3]⟩

/-- Modems that report new calls (or are polled): the first event that tells of a call gives it its id. -/
theorem C66_dial_waiting (hdep : 0 < env.depth) {s : St} (hw : s.waitForCallInitUpdate = true) (number : PyStr) (timeout : Nat) (cb : Bool) (during : List Event) :
    ∃ ok s1, OnlyLog s s1 ∧ Dialled env.reply s.waitForAtdResponse number s.log s1.log ok ∧
      (ok = false → ∃ e, dial number timeout cb during env s = (.error e, { s1 with dialEvent := none })) ∧
      (ok = true → ∃ s2 r, AwaitsCall env (withPoller { s1 with dialEvent := some false } timeout) during s2 r ∧
        dial number timeout cb during env s =
          dialEnd number cb s2 r) := by
  obtain ⟨ok, s1, h1, h2, h3⟩ := writeAtd_run (env := env) number { s with dialEvent := some false }
  obtain ⟨l, w, rfl⟩ := h1
  refine ⟨ok, { s with log := l, writeWait := w }, ⟨l, w, rfl⟩, h2, ?_⟩
  unfold dial
  rw [run_bind, run_get]
  dsimp only
  rw [if_pos hw, run_bind, run_modify]
  dsimp only
  rw [run_bind]
  unfold M.except
  rcases h3 with ⟨rfl, h3⟩ | ⟨rfl, e, h3⟩
  · rw [h3]
    refine ⟨by simp, fun _ => ?_⟩
    dsimp only
    have hf : (withPoller { s with log := l, writeWait := w, dialEvent := some false } timeout).dialEvent = some false := by
      unfold withPoller; split <;> rfl
    obtain ⟨s2, r, h4, h5, h6⟩ := await_dial hdep during hf
    refine ⟨s2, r, h4, ?_⟩
    have hrest : ∀ (m : M Unit), m env { s with log := l, writeWait := w, dialEvent := some false } = (.ok (), withPoller { s with log := l, writeWait := w, dialEvent := some false } timeout) →
        (do
          m
          let ok ← awaitEvent (fun s => s.dialEvent = some true) during
          M.modify fun s => { s with dialEvent := none }
          if ok then do
            let s ← get
            match s.dialResponse with
            | none => raise .typeError
            | some (callId, callType) =>
              registerCall { incoming := false, id := callId, type := some callType, number := some number, callback := cb }
          else raise (.timeout none) : M Nat) env { s with log := l, writeWait := w, dialEvent := some false } =
        dialEnd number cb s2 r := by
      intro m hm
      rw [run_bind, hm]
      dsimp only
      rw [run_bind, h5]
      dsimp only
      rw [run_bind, run_modify]
      dsimp only
      cases r with
      | none => rfl
      | some ab =>
        have h7 := h6 ab.1 ab.2 rfl
        simp only [Option.isSome_some, if_true, run_bind, run_get, h7, registerCall, dialEnd, addCall, newCall]
    by_cases hm : s.mustPollCallStatus = true
    · rw [if_pos hm]
      exact hrest (M.modify fun s => { s with pollers := s.pollers ++ [⟨0, none, if timeout = 0 then 1999998 else timeout, false⟩] })
        (by rw [run_modify]; unfold withPoller; rw [if_pos hm])
    · rw [if_neg hm]
      exact hrest (pure ()) (by rw [run_pure]; unfold withPoller; rw [if_neg hm])
  · rw [h3]
    exact ⟨fun _ => ⟨e, rfl⟩, by simp⟩

/-- Other modems: the call has the next number, and the type of a voice call. -/
theorem C66_dial_at_once {s : St} (hw : s.waitForCallInitUpdate = false) (number : PyStr) (timeout : Nat) (cb : Bool) (during : List Event) :
    ∃ ok s1, OnlyLog s s1 ∧ Dialled env.reply s.waitForAtdResponse number s.log s1.log ok ∧
      (ok = false → ∃ e, dial number timeout cb during env s = (.error e, s1)) ∧
      (ok = true → dial number timeout cb during env s = (.ok s.calls.length, addCall s1 (newCall number cb (s.activeCalls.length + 1) 0))) := by
  obtain ⟨ok, s1, h1, h2, h3⟩ := writeAtd_run (env := env) number s
  refine ⟨ok, s1, h1, h2, ?_⟩
  unfold dial
  rw [run_bind, run_get]
  dsimp only
  rw [hw, if_neg (by simp), run_bind]
  rcases h3 with ⟨rfl, h3⟩ | ⟨rfl, e, h3⟩
  · rw [h3]
    obtain ⟨l, w, rfl⟩ := h1
    exact ⟨by simp, fun _ => rfl⟩
  · rw [h3]
    exact ⟨fun _ => ⟨e, rfl⟩, by simp⟩

theorem dictGet_setSelf {α : Type} : ∀ (d : List (Int × α)) (k : Int) (v : α), dictGet (dictSet d k v) k = some v
  | [], k, v => by simp [dictSet, dictGet]
  | (k', v') :: d, k, v => by
    have := dictGet_setSelf d k v
    unfold dictSet
    split
    · rename_i h; simp [dictGet, h]
    · rename_i h
      unfold dictGet at this ⊢
      rw [List.find?_cons_of_neg (by simpa using h)]
      exact this

/-- After `dial`, nothing is awaited any more. -/
theorem C66_not_awaited (hdep : 0 < env.depth) {s : St} (h : s.waitForCallInitUpdate = true ∨ s.dialEvent = none) (number : PyStr) (timeout : Nat) (cb : Bool) (during : List Event) :
    (dial number timeout cb during env s).2.dialEvent = none := by
  by_cases hw : s.waitForCallInitUpdate = true
  · obtain ⟨ok, s1, h1, h2, h3, h4⟩ := C66_dial_waiting hdep hw number timeout cb during
    cases ok with
    | false =>
      obtain ⟨e, h5⟩ := h3 rfl
      rw [h5]
    | true =>
      obtain ⟨s2, r, _, h5⟩ := h4 rfl
      rw [h5]
      cases r <;> rfl
  · obtain ⟨ok, s1, h1, h2, h3, h4⟩ := C66_dial_at_once (env := env) (Bool.eq_false_iff.2 hw) number timeout cb during
    have h0 : s1.dialEvent = none := by
      obtain ⟨l, w, rfl⟩ := h1
      exact h.resolve_left hw
    cases ok with
    | false =>
      obtain ⟨e, h5⟩ := h3 rfl
      rw [h5]; exact h0
    | true => rw [h4 rfl]; exact h0

/-- The call that `dial` returns: its number and callback are the ones given, and it is in the table under its id. -/
theorem C66_call (hdep : 0 < env.depth) {s s' : St} {number : PyStr} {timeout : Nat} {cb : Bool} {during : List Event} {i : Nat}
    (h : dial number timeout cb during env s = (.ok i, s')) :
    ∃ id type, s'.calls[i]? = some (newCall number cb id type) ∧ dictGet s'.activeCalls id = some i ∧
      (s.waitForCallInitUpdate = false → id = s.activeCalls.length + 1 ∧ type = 0) := by
  have hadd : ∀ (s : St) c, (addCall s c).calls[s.calls.length]? = some c ∧ dictGet (addCall s c).activeCalls c.id = some s.calls.length := by
    intro s c
    refine ⟨by simp [addCall], ?_⟩
    simp only [addCall]
    exact dictGet_setSelf _ _ _
  by_cases hw : s.waitForCallInitUpdate = true
  · obtain ⟨ok, s1, h1, h2, h3, h4⟩ := C66_dial_waiting hdep hw number timeout cb during
    cases ok with
    | false =>
      obtain ⟨e, h5⟩ := h3 rfl
      rw [h5] at h; cases h
    | true =>
      obtain ⟨s2, r, _, h5⟩ := h4 rfl
      rw [h5] at h
      cases r with
      | none => cases h
      | some ab =>
        cases h
        exact ⟨ab.1, ab.2, (hadd _ _).1, (hadd _ _).2, by simp [hw]⟩
  · obtain ⟨ok, s1, h1, h2, h3, h4⟩ := C66_dial_at_once (env := env) (Bool.eq_false_iff.2 hw) number timeout cb during
    cases ok with
    | false =>
      obtain ⟨e, h5⟩ := h3 rfl
      rw [h5] at h; cases h
    | true =>
      rw [h4 rfl] at h
      obtain ⟨l, w, rfl⟩ := h1
      cases h
      exact ⟨_, _, (hadd _ _).1, (hadd _ _).2, fun _ => ⟨rfl, rfl⟩⟩

/-- A Huawei modem. -/
def huaweiState : St := { waitForCallInitUpdate := true, callStatusUpdates := .huawei }

example : (dial py!"0123" 10 true [.notify [py!"^RSSI: 17"], .notify [py!"^ORIG:3,0"], .notify [py!"^ORIG:4,0"]] goodModem huaweiState).2.calls =
    [newCall py!"0123" true 3 0] := by decide +kernel
example : ((dial py!"0123" 10 true [.notify [py!"^RSSI: 17"], .notify [py!"^ORIG:3,0"]] goodModem huaweiState).2.log) = [py!"ATD0123;\r"] := by decide +kernel
example : ((dial py!"0123" 10 true [] goodModem { mustPollCallStatus := true }).2.pollers) = [⟨0, none, 10, false⟩] := by decide +kernel
example : ((dial py!"0123" 10 true [] goodModem {  waitForCallInitUpdate := false }).2.calls) = [newCall py!"0123" true 1 0] := by decide +kernel

/-- If the call is not announced in time, there is no object for it, but the modem goes on dialling: it is not hung up. -/
theorem C66_timeout_not_hung_up : (dial py!"0123" 10 true [.notify [py!"^RSSI: 17"]] goodModem huaweiState).1 = .error (.timeout none) ∧
    (dial py!"0123" 10 true [.notify [py!"^RSSI: 17"]] goodModem huaweiState).2.log = [py!"ATD0123;\r"] ∧
    (dial py!"0123" 10 true [.notify [py!"^RSSI: 17"]] goodModem huaweiState).2.calls = [] := by decide +kernel

/-- If the call and its end are announced in one batch, the end is lost, and the call is returned as active. -/
theorem C66_ended_at_once : (dial py!"0123" 10 true [.notify [py!"^ORIG:3,0", py!"^CEND:3,0,104,16"]] goodModem huaweiState).2.calls = [newCall py!"0123" true 3 0] := by decide +kernel

end Gsm
