import Verif.Lemmas.Ussd
import Verif.Props.ModemDelivery
/-! # Property C72: USSD requests -/
namespace Gsm
open M Spec

variable {env : Env}

/-- What any batch of lines is taken for. -/
theorem C72_parse (lines : List PyStr) (r : Except PyErr Ussd) : parseCusdResponse lines = r ↔ UssdMeans lines r :=
  ⟨fun h => h ▸ parse_means lines, fun h => means_unique (parse_means lines) h⟩

/-- The text determines the results. -/
theorem C72_results {text : PyStr} {rs rs' : List (Nat × PyStr)} (h : UssdIn text rs) (h' : UssdIn text rs') : rs = rs' := ussdIn_unique h h'

/-! ### Waiting -/

theorem handleUssd_run {s : St} (h : s.ussdSessionEvent = some false) (batch : List PyStr) :
    (handleUssd batch env s).2 = match parseCusdResponse batch with
      | .ok u => { s with ussdSessionEvent := some true, ussdResponse := some u }
      | .error _ => s := by
  unfold handleUssd
  rw [run_bind, run_get]
  dsimp only
  rw [if_pos (by rw [h]; rfl), run_bind, run_ofExcept]
  cases parseCusdResponse batch <;> rfl

theorem event_ussd {s : St} (h : s.ussdSessionEvent = some false) (e : Event) :
    (∃ u, BringsUssd s u e ∧ (e.run env s).2 = { s with ussdSessionEvent := some true, ussdResponse := some u }) ∨
    ((∀ u, ¬ BringsUssd s u e) ∧ (e.run env s).2.ussdSessionEvent = some false) := by
  have key : ∀ {s' : St}, ussdState s' = ussdState s → s'.ussdSessionEvent = some false := fun hk => (congrArg Prod.fst hk).trans h
  cases e with
  | poll k => exact .inr ⟨fun _ hb => hb, key (uf_poll k s)⟩
  | notify batch =>
    show _ ∨ (_ ∧ (handleNotification batch env s).2.ussdSessionEvent = _)
    rcases first_recognised (callTable s.callStatusUpdates) batch with h0 | ⟨pre, line, post, d, rfl, h1, h2⟩
    · refine .inr ⟨?_, by rw [C43_none h0]; exact h⟩
      rintro u ⟨pre, line, post, rfl, _, h2, _⟩
      exact h0 line (by simp) _ h2
    · have hrun : ((Event.notify (pre ++ line :: post)).run env s).2 = (handlerOf (pre ++ line :: post) line d env s).2 := by
        show (handleNotification _ env s).2 = _
        rw [C43_first h1 h2]
      have hno : d ≠ .cusd → ∀ u, ¬ BringsUssd s u (.notify (pre ++ line :: post)) := by
        rintro hd u ⟨pre', line', post', hb, k1, k2, _⟩
        obtain rfl := split_unique hb h1 h2 k1 k2
        exact hd (C43_unique h2 k2)
      rw [C43_first h1 h2, hrun]
      cases d with
      | ring => exact .inr ⟨hno (by simp), key ((uf_incoming _).run s).2⟩
      | cmti => exact .inr ⟨hno (by simp), key ((uf_received _).run s).2⟩
      | cdsi => exact .inr ⟨hno (by simp), key ((uf_statusReport _).run s).2⟩
      | call hh g => exact .inr ⟨hno (by simp), key ((uf_runCallHandler _ _).run s).2⟩
      | cusd =>
        simp only [handlerOf, handleUssd_run h]
        cases hp : parseCusdResponse (pre ++ line :: post) with
        | ok u => exact .inl ⟨u, ⟨pre, line, post, rfl, h1, h2, (C72_parse _ _).1 hp⟩, rfl⟩
        | error e =>
          refine .inr ⟨?_, h⟩
          rintro u ⟨_, _, _, _, _, _, hm⟩
          rw [(C72_parse _ _).2 hm] at hp
          cases hp

theorem await_ussd : ∀ (es : List Event) {s : St}, s.ussdSessionEvent = some false →
    ∃ s' r, AwaitsUssd env s es s' r ∧ awaitEvent (fun s => s.ussdSessionEvent = some true) es env s = (.ok r.isSome, s') ∧
      ∀ u, r = some u → s'.ussdResponse = some u
  | [], s, h => ⟨s, none, .over, by simp [awaitEvent, run_bind, run_get, run_pure, h], by simp⟩
  | e :: es, s, h => by
    have hstep : awaitEvent (fun s => s.ussdSessionEvent = some true) (e :: es) env s = awaitEvent (fun s => s.ussdSessionEvent = some true) es env (e.run env s).2 := by
      simp only [awaitEvent, run_bind, run_get, h]
      rw [if_neg (by simp), run_bind, event_runs]
    rw [hstep]
    rcases event_ussd (env := env) h e with ⟨u, h1, h2⟩ | ⟨h1, h2⟩
    · refine ⟨_, some u, .told h1, ?_, fun _ hu => by cases hu; rfl⟩
      rw [h2]
      cases es with
      | nil => simp [awaitEvent, run_bind, run_get, run_pure]
      | cons e' es => simp [awaitEvent, run_bind, run_get, run_pure]
    · obtain ⟨s', r, h3, h4, h5⟩ := await_ussd es h2
      exact ⟨s', r, .other h1 h3, h4, h5⟩

/-- `sendUssd`: the result is in the answer to the command, or in the first batch after it that brings one. -/
theorem C72_send (str : PyStr) (during : List Event) (s : St) :
    ∃ ok s1, OnlyLog s s1 ∧ Transmission env.reply [py!"AT+CUSD=1,\"" ++ str ++ py!"\",15\r"] s.log s1.log ok ∧
      (ok = false → ∃ e, sendUssd str during env s = (.error e, { s1 with ussdSessionEvent := none })) ∧
      (ok = true → ∃ ls, env.reply s1.log = .lines ls ∧
        (InAnswer ls → ∃ r, UssdMeans ls r ∧ sendUssd str during env s = (r.map some, { s1 with ussdSessionEvent := none })) ∧
        (¬ InAnswer ls → ∃ s2 r, AwaitsUssd env { s1 with ussdSessionEvent := some false } during s2 r ∧ sendUssd str during env s = ussdEnd s2 r)) := by
  obtain ⟨ok, s1, ⟨l, w, rfl⟩, h2, h3⟩ := write_trans (env := env) (cusdCmd str) [13] { s with ussdSessionEvent := some false }
  rw [show cusdCmd str ++ [13] = py!"AT+CUSD=1,\"" ++ str ++ py!"\",15\r" by simp [cusdCmd]] at h2
  refine ⟨ok, { s with log := l, writeWait := w }, ⟨l, w, rfl⟩, h2, ?_, ?_⟩
  · rintro rfl
    rcases h3 with ⟨h, _⟩ | ⟨_, e, h3⟩
    · cases h
    · refine ⟨e, ?_⟩
      unfold sendUssd
      simp only [run_bind, run_modify, M.except, h3, run_raise, if_true]
  · rintro rfl
    rcases h3 with ⟨_, h3⟩ | ⟨h, _⟩
    · obtain ⟨ls, line, hr, _⟩ := trans_accepted h2 rfl (by simp)
      have hla : lastAnswer env l = ls := by simp only at hr; simp [lastAnswer, hr]
      simp only [hla] at h3
      refine ⟨ls, hr, ?_, ?_⟩
      · rintro ⟨k1, k2⟩
        exact ⟨_, parse_means ls, (C44_in_response (s := s) h3 k1 k2 :)⟩
      · intro hin
        obtain ⟨s2, r, k1, k2, k3⟩ := await_ussd (env := env) during (s := { s with log := l, writeWait := w, ussdSessionEvent := some false }) rfl
        refine ⟨s2, r, k1, ?_⟩
        unfold sendUssd
        simp only [run_bind, run_modify, M.except, h3]
        have hno : ¬ (ls.length > 1 ∧ lineStartingWith py!"+CUSD" ls ≠ none) := by
          rintro ⟨j1, j2⟩
          refine hin ⟨j1, Classical.byContradiction fun hc => j2 ((C52_starting_with _ _).2.2 fun x hx hp => hc ⟨x, hx, hp⟩)⟩
        rw [if_neg hno]
        simp only [run_bind, k2, run_modify]
        cases r with
        | none => rfl
        | some u =>
          have := k3 u rfl
          simp only [Option.isSome_some, if_true, run_bind, run_get, run_pure, this, ussdEnd]
    · cases h

/-- The events determine how the wait ends. -/
theorem C72_wait_unique {s s1 s2 : St} {es : List Event} {a b : Option Ussd} (h : AwaitsUssd env s es s1 a) (h' : AwaitsUssd env s es s2 b) : s1 = s2 ∧ a = b := by
  induction h with
  | over => cases h'; exact ⟨rfl, rfl⟩
  | @told s e es u h1 =>
    cases h' with
    | @told _ _ _ u' h2 =>
      have : u = u' := by
        cases e with
        | poll => exact h1.elim
        | notify batch =>
          obtain ⟨_, _, _, _, _, _, k1⟩ := h1
          obtain ⟨_, _, _, _, _, _, k2⟩ := h2
          have := means_unique k1 k2
          cases this; rfl
      subst this
      exact ⟨rfl, rfl⟩
    | other h2 => exact absurd h1 (h2 _)
  | other h1 _ ih =>
    cases h' with
    | told h2 => exact absurd h2 (h1 _)
    | other _ h2 => exact ih h2

/-! ### Examples -/

example : UssdAt py!"+CUSD: 0,\"say \"hi\", please\",15 x" 48 py!"say \"hi\", please" py!" x" :=
  ⟨py!" ", py!"15", rfl, by simp [Spaces], by omega, by
    intro a b d h
    rcases a with _ | ⟨_, _ | ⟨_, _ | ⟨_, _ | ⟨_, _ | ⟨_, _ | ⟨_, _ | ⟨_, _ | ⟨_, a⟩⟩⟩⟩⟩⟩⟩⟩ <;> simp at h <;> try omega
    rcases a with _ | ⟨_, _ | ⟨_, _ | ⟨_, _ | ⟨_, _ | ⟨_, _ | ⟨_, _ | ⟨_, _ | ⟨_, a⟩⟩⟩⟩⟩⟩⟩⟩ <;> simp at h <;> try omega, by simp [Digits], by simp⟩
example : (sendUssd py!"*101#" [.notify [py!"^RSSI: 1"], .notify [py!"+CUSD: 2"], .notify [py!"+CUSD: 1,\"menu\",15"]] goodModem {}).1 = .ok (some ⟨true, some py!"menu"⟩) := by decide +kernel
example : (sendUssd py!"*101#" [.notify [py!"+CUSD: 2"]] goodModem {}).1 = .error (.timeout none) := by decide +kernel
example : (sendUssd py!"*101#" [] goodModem {}).2.log = [py!"AT+CUSD=1,\"*101#\",15\r"] := by decide +kernel

/-- A message that contains a quote, a comma and a digit is cut off there. -/
theorem C72_cut_off : parseCusdResponse [py!"+CUSD: 0,\"Dial \"1\",2 or 3\",15"] = .ok ⟨false, some py!"Dial \"1"⟩ := by decide +kernel

end Gsm
