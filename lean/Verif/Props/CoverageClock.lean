import Verif.Lemmas.CoverageClock
import Verif.Props.Commands
/-! # C108: how long connecting and waiting for the network take -/
namespace Gsm
open Spec

variable {env : Env} {wait : List PyStr → Nat} {modem : Nat → Env} {timeout : Nat}

/-! ### Connecting -/

/-- If the modem is never busy, `connect` takes the time that the modem takes, and the delay once for each answer. -/
theorem C108_connect (hb : NeverBusy env.reply) (pin : Option PyStr) (s : St) :
    (connect pin env s).2.writeWait = s.writeWait ∧ ∃ new, (connect pin env s).2.log = new ++ s.log ∧
      (Prog.connect pin).elapsed env wait s = waitedFor wait new.length (connect pin env s).2.log + 100 * s.writeWait * answeredAmong env.reply new.length (connect pin env s).2.log := by
  obtain ⟨new, h1, h2, h3⟩ := Prog.elapsed_calm (wait := wait) hb (Prog.connect pin) (Prog.calm_connect pin) s
  rw [Prog.same_connect] at h1 h2 h3
  exact ⟨h2, new, h1, h3⟩

/-- That is at most 26 times the time of one command. -/
theorem C108_connect_limit {T : Nat} (hd : 0 < env.depth) (hb : NeverBusy env.reply) (hT : ∀ log, wait log ≤ T) (pin : Option PyStr) (s : St) :
    (Prog.connect pin).elapsed env wait s ≤ 26 * (T + 100 * s.writeWait) := by
  obtain ⟨-, new, h1, h2⟩ := C108_connect (wait := wait) hb pin s
  have h3 := (C101_connect hd pin s).2 hb
  rw [h1, List.length_append] at h3
  unfold mostToConnect at h3
  have h4 := waited_le hT new.length (connect pin env s).2.log
  have h5 := Nat.mul_le_mul_left (100 * s.writeWait) (answered_le (reply := env.reply) new.length (connect pin env s).2.log)
  have h6 : new.length * (T + 100 * s.writeWait) ≤ 26 * (T + 100 * s.writeWait) := Nat.mul_le_mul_right _ (by omega)
  rw [Nat.mul_add, Nat.mul_comm new.length (100 * s.writeWait)] at h6
  rw [h2]
  omega

/-- Whatever the modem answers, `connect` does not block for ever. -/
theorem C108_connect_ends {T : Nat} (hd : 0 < env.depth) (hT : ∀ log, wait log ≤ T) (pin : Option PyStr) (s : St) :
    (Prog.connect pin).elapsed env wait s ≤ 26 * env.depth * T + 100 * (2 * (26 * env.depth) * (max s.writeWait 1 + 2 * (26 * env.depth))) := by
  obtain ⟨new, h1, h2⟩ := Prog.elapsed_tame (env := env) (wait := wait) (Prog.connect pin) False (Prog.tame_connect pin) s
  rw [Prog.same_connect] at h1 h2
  have h3 := (C101_connect hd pin s).1
  rw [h1, List.length_append] at h3
  unfold mostToConnect at h3
  have h4 := waited_le hT new.length (connect pin env s).2.log
  have h5 := busy_le (reply := env.reply) new.length (connect pin env s).2.log
  simp only [if_false, Nat.add_zero] at h2
  generalize busyAmong env.reply new.length (connect pin env s).2.log = k at h2 h5
  generalize 26 * env.depth = N at h3 ⊢
  have h6 : new.length * T ≤ N * T := Nat.mul_le_mul_right _ (by omega)
  have h7 : (new.length + k) * (max s.writeWait 1 + 2 * k) ≤ 2 * N * (max s.writeWait 1 + 2 * N) := Nat.mul_le_mul (by omega) (by omega)
  omega

/-- If the modem does not answer, `connect` waits for the first command only. -/
theorem C108_connect_silent (hd : 0 < env.depth) (hs : Silent env.reply) (pin : Option PyStr) (s : St) :
    (Prog.connect pin).elapsed env wait s = wait (py!"ATZ\r" :: s.log) ∧ (∃ d, (connect pin env s).1 = .error (.timeout d)) ∧ (connect pin env s).2.log = py!"ATZ\r" :: s.log := by
  obtain ⟨n, hn⟩ : ∃ n, env.depth = n + 1 := ⟨env.depth - 1, by omega⟩
  obtain ⟨d, hr⟩ := hs (py!"ATZ\r" :: s.log)
  rw [← Prog.same_connect]
  have h : ((Prog.connect pin).run env s) = (.error (.timeout d), { s with alive := true, log := py!"ATZ\r" :: s.log }) ∧ (Prog.connect pin).elapsed env wait s = wait (py!"ATZ\r" :: s.log) := by
    constructor
    · simp [Prog.connect, Prog.connectBasics, Prog.tryCommand, Prog.except, Prog.write, Prog.writeN, Prog.change, Prog.bind, bind, pure, Prog.run, hn, hr, Prog.raise]
    · simp [Prog.connect, Prog.connectBasics, Prog.tryCommand, Prog.except, Prog.write, Prog.writeN, Prog.change, Prog.bind, bind, pure, Prog.elapsed, Prog.actTime, Prog.pauseAfter, hn, hr,
        Prog.raise]
  rw [h.1]
  exact ⟨h.2, ⟨d, rfl⟩, rfl⟩

/-- The bound is reached. -/
theorem C108_connect_reached : (connect (some py!"1234") troublesome { writeWait := 1 }).1 = .ok () ∧
    (Prog.connect (some py!"1234")).elapsed troublesome (fun _ => 20) { writeWait := 1 } = 26 * (20 + 100 * 1) := by decide +kernel

/-! ### Waiting for the network -/

/-- It is the timer that ends the loop, not the number of rounds of the model. -/
theorem coverage_fuel : ∀ (fuel fuel' : Nat) (check : Bool) (now : Nat) (s : St), timeout ≤ now + 1000 * fuel → fuel ≤ fuel' →
    timedCoverage modem wait timeout fuel check now s = timedCoverage modem wait timeout fuel' check now s
  | 0, 0, _, _, _, _, _ => rfl
  | 0, f + 1, true, now, s, h, _ => by simp only [timedCoverage]; rw [if_pos (by omega)]
  | 0, f + 1, false, now, s, h, _ => by simp only [timedCoverage]; rw [if_pos (by omega)]
  | _ + 1, 0, _, _, _, _, h => by omega
  | f + 1, f' + 1, true, now, s, h, hf => by
    simp only [timedCoverage]
    split
    · rfl
    · rcases timedWrite (modem now) wait py!"AT+CREG?" false [13] s with ⟨⟨e | ls, s'⟩, t⟩
      · rfl
      · dsimp only
        cases cregNext ls with
        | error e => rfl
        | ok check => exact coverage_fuel f f' check _ s' (by omega) (by omega)
  | f + 1, f' + 1, false, now, s, h, hf => by
    simp only [timedCoverage]
    split
    · rfl
    · rcases timedWrite (modem now) wait py!"AT+CSQ" true [13] s with ⟨⟨e | ls, s'⟩, t⟩
      · rfl
      · dsimp only
        cases csqValue ls with
        | error e => rfl
        | ok ss =>
          dsimp only
          split
          · rfl
          · exact coverage_fuel f f' false _ s' (by omega) (by omega)

/-- With more rounds it would be the same. -/
theorem C108_timer {fuel : Nat} (h : timeout / 1000 + 2 ≤ fuel) (s : St) : timedCoverage modem wait timeout fuel true 0 s = coverageWithin modem wait timeout s :=
  (coverage_fuel _ _ true 0 s (by omega) h).symm

theorem coverage_rounds : ∀ (fuel : Nat) (check : Bool) (now : Nat) (s : St), ∃ r, (r = 0 ∨ now + 1000 * (r - 1) < timeout) ∧
    (timedCoverage (fun _ => env) wait timeout fuel check now s).1 = coverageLoop r check env s
  | 0, check, now, s => ⟨0, .inl rfl, by cases check <;> rfl⟩
  | f + 1, true, now, s => by
    simp only [timedCoverage]
    split
    · exact ⟨0, .inl rfl, rfl⟩
    · next hn =>
      have hw := timedWrite_same (env := env) (wait := wait) py!"AT+CREG?" false [13] s
      have hu : ∀ r, coverageLoop (r + 1) true env s = match (write py!"AT+CREG?" false [13] env s) with
          | (.error e, s) => (.error e, s)
          | (.ok ls, s) => match cregNext ls with
            | .error e => (.error e, s)
            | .ok check => coverageLoop r check env s := by
        intro r
        simp only [coverageLoop, run_bind]
        rcases write py!"AT+CREG?" false [13] env s with ⟨e | ls, s'⟩
        · rfl
        · dsimp only
          unfold cregNext
          rcases creg_answer ls with ⟨_, h2⟩ | ⟨d, m, _, h2, h3⟩
          · rw [h2]
          · rw [h2]
            simp only [h3, run_bind, run_ofExcept]
            split
            · rfl
            · split
              · rfl
              · split <;> rfl
      generalize timedWrite env wait py!"AT+CREG?" false [13] s = x at hw ⊢
      obtain ⟨⟨e | ls, s'⟩, t⟩ := x
      · refine ⟨1, .inr (by omega), ?_⟩
        rw [hu, ← hw]
      · dsimp only at hw ⊢
        cases hc : cregNext ls with
        | error e =>
          refine ⟨1, .inr (by omega), ?_⟩
          rw [hu, ← hw]
          simp only [hc]
        | ok check =>
          obtain ⟨r, h1, h2⟩ := coverage_rounds f check (now + t + 1000) s'
          refine ⟨r + 1, .inr (by omega), ?_⟩
          rw [hu, ← hw]
          simp only [hc]
          exact h2
  | f + 1, false, now, s => by
    simp only [timedCoverage]
    split
    · exact ⟨0, .inl rfl, rfl⟩
    · next hn =>
      have hw := timedWrite_same (env := env) (wait := wait) py!"AT+CSQ" true [13] s
      have hu : ∀ r, coverageLoop (r + 1) false env s = match (write py!"AT+CSQ" true [13] env s) with
          | (.error e, s) => (.error e, s)
          | (.ok ls, s) => match csqValue ls with
            | .error e => (.error e, s)
            | .ok ss => if ss > 0 then (.ok ss, s) else coverageLoop r false env s := by
        intro r
        simp only [coverageLoop, signalStrength, run_bind]
        rcases write py!"AT+CSQ" true [13] env s with ⟨e | ls, s'⟩
        · rfl
        · dsimp only
          cases ls with
          | nil => rfl
          | cons l ls =>
            simp only [firstLine, csqValue, run_ofExcept]
            cases hg : rxGroups csqRegex l with
            | none => rfl
            | some g =>
              obtain ⟨ds, rfl, hd, _⟩ := csq_iff.1 hg
              simp only [run_pure, run_bind, run_ofExcept, pyInt_of_digits hd]
              generalize (if (decVal ds : Int) ≠ 99 then (decVal ds : Int) else -1) = x
              by_cases hx : x > 0
              · rw [if_pos hx, if_pos hx]; rfl
              · rw [if_neg hx, if_neg hx]
      generalize timedWrite env wait py!"AT+CSQ" true [13] s = x at hw ⊢
      obtain ⟨⟨e | ls, s'⟩, t⟩ := x
      · refine ⟨1, .inr (by omega), ?_⟩
        rw [hu, ← hw]
      · dsimp only at hw ⊢
        cases hc : csqValue ls with
        | error e =>
          refine ⟨1, .inr (by omega), ?_⟩
          rw [hu, ← hw]
          simp only [hc]
        | ok ss =>
          dsimp only
          split
          · next hp =>
            refine ⟨1, .inr (by omega), ?_⟩
            rw [hu, ← hw]
            simp only [hc]
            rw [if_pos hp]
          · next hp =>
            obtain ⟨r, h1, h2⟩ := coverage_rounds f false (now + t + 1000) s'
            refine ⟨r + 1, .inr (by omega), ?_⟩
            rw [hu, ← hw]
            simp only [hc]
            rw [if_neg hp]
            exact h2

/-- If the answers do not depend on the time, the method does what C45 says of a number of rounds, of which less than
one for each second of the timeout and one more. -/
theorem C108_rounds (s : St) : ∃ r, 1000 * r < timeout + 1000 ∧ (coverageWithin (fun _ => env) wait timeout s).1 = waitForNetworkCoverage r env s := by
  obtain ⟨r, h1, h2⟩ := coverage_rounds (env := env) (wait := wait) (timeout := timeout) (timeout / 1000 + 2) true 0 s
  exact ⟨r, by omega, h2⟩

/-- The end of the loop. -/
theorem coverage_time {T w : Nat} (hb : ∀ t, NeverBusy (modem t).reply) (hT : ∀ log, wait log ≤ T) : ∀ (fuel : Nat) (check : Bool) (now : Nat) (s : St), s.writeWait = w →
    now < timeout + T + 100 * w + 1000 → (timedCoverage modem wait timeout fuel check now s).2 < timeout + T + 100 * w + 1000
  | 0, check, now, s, _, h => by cases check <;> exact h
  | f + 1, true, now, s, hw, h => by
    simp only [timedCoverage]
    split
    · exact h
    · next hn =>
      have ht := timed_once (env := modem now) (wait := wait) (data := py!"AT+CREG?") (term := [13]) (pe := false) (s := s) (hb now _)
      have hm := hT ((py!"AT+CREG?" ++ [13]) :: s.log)
      generalize timedWrite (modem now) wait py!"AT+CREG?" false [13] s = x at ht ⊢
      obtain ⟨⟨e | ls, s'⟩, t⟩ := x
      · dsimp only at ht ⊢; rw [hw] at ht; omega
      · dsimp only at ht ⊢
        rw [hw] at ht
        cases cregNext ls with
        | error e => dsimp only; omega
        | ok check => exact coverage_time hb hT f check _ s' ht.1 (by omega)
  | f + 1, false, now, s, hw, h => by
    simp only [timedCoverage]
    split
    · exact h
    · next hn =>
      have ht := timed_once (env := modem now) (wait := wait) (data := py!"AT+CSQ") (term := [13]) (pe := true) (s := s) (hb now _)
      have hm := hT ((py!"AT+CSQ" ++ [13]) :: s.log)
      generalize timedWrite (modem now) wait py!"AT+CSQ" true [13] s = x at ht ⊢
      obtain ⟨⟨e | ls, s'⟩, t⟩ := x
      · dsimp only at ht ⊢; rw [hw] at ht; omega
      · dsimp only at ht ⊢
        rw [hw] at ht
        cases csqValue ls with
        | error e => dsimp only; omega
        | ok ss =>
          dsimp only
          split
          · dsimp only; omega
          · exact coverage_time hb hT f false _ s' ht.1 (by omega)

/-- The method ends not later than one command and one second after the timeout (if the modem is never busy). -/
theorem C108_in_time {T : Nat} (hb : ∀ t, NeverBusy (modem t).reply) (hT : ∀ log, wait log ≤ T) (s : St) :
    (coverageWithin modem wait timeout s).2 < timeout + (T + 100 * s.writeWait) + 1000 := by
  have := coverage_time (timeout := timeout) hb hT (timeout / 1000 + 2) true 0 s rfl (by omega)
  unfold coverageWithin
  omega

/-- A round that asks for the registration, of a modem that tells it. -/
theorem round_creg {s : St} {fuel now : Nat} (hd : 0 < (modem now).depth) (A : TellsCoverage (modem now)) (hn : now < timeout) :
    ∃ check, timedCoverage modem wait timeout (fuel + 1) true now s =
        timedCoverage modem wait timeout fuel check (now + (wait (cregCmd :: s.log) + 100 * s.writeWait) + 1000) { s with log := cregCmd :: s.log } ∧
      (Covered (modem now) → check = false) := by
  obtain ⟨ls, n, h1, h2, h3, h4, h5⟩ := A.creg s.log
  have hw := timed_any (env := modem now) (wait := wait) (data := py!"AT+CREG?") (term := [13]) hd h1 h2
  have hc := creg_next h3
  rw [if_neg (show ¬ (n = 3 ∨ n = 0) by omega)] at hc
  refine ⟨!decide (n = 1 ∨ n = 5), ?_, fun hC => ?_⟩
  · simp only [timedCoverage]
    rw [if_neg (by omega), hw]
    dsimp only
    rw [hc]
    by_cases h : n = 1 ∨ n = 5
    · rw [if_pos h]; simp only [h, decide_true, Bool.not_true]; rfl
    · rw [if_neg h]; simp only [h, decide_false, Bool.not_false]; rfl
  · obtain ⟨ls', g1, _, g3⟩ := hC.creg s.log
    rw [h1] at g1
    cases g1
    rcases g3 with g3 | g3 <;> simp [tells_unique h3 g3]

/-- A round that asks for the signal. -/
theorem round_csq {s : St} {fuel now : Nat} (hd : 0 < (modem now).depth) (A : TellsCoverage (modem now)) (hn : now < timeout) :
    (∃ v, 0 < v ∧ timedCoverage modem wait timeout (fuel + 1) false now s = ((.ok v, { s with log := csqCmd :: s.log }), now + (wait (csqCmd :: s.log) + 100 * s.writeWait))) ∨
    (timedCoverage modem wait timeout (fuel + 1) false now s =
        timedCoverage modem wait timeout fuel false (now + (wait (csqCmd :: s.log) + 100 * s.writeWait) + 1000) { s with log := csqCmd :: s.log } ∧ ¬ Covered (modem now)) := by
  obtain ⟨l, ls, n, h1, h2, h3⟩ := A.csq s.log
  have hw := timed_accepted (env := modem now) (wait := wait) (data := py!"AT+CSQ") (term := [13]) hd h1 h3
  have hc := csq_value (ls := ls) h2
  simp only [timedCoverage]
  rw [if_neg (by omega), hw]
  dsimp only
  rw [hc]
  dsimp only
  by_cases hp : (if n ≠ 99 then (n : Int) else -1) > 0
  · rw [if_pos hp]
    exact .inl ⟨_, hp, rfl⟩
  · rw [if_neg hp]
    refine .inr ⟨rfl, fun hC => ?_⟩
    obtain ⟨l', ls', m, g1, g2, g3, g4, _⟩ := hC.csq s.log
    rw [h1] at g1
    cases g1
    have := csq_value (ls := ls) g2
    rw [hc, if_pos g4] at this
    simp only [Except.ok.injEq] at this
    rw [this] at hp
    omega

theorem coverage_late (hd : ∀ t, 0 < (modem t).depth) (A : ∀ t, TellsCoverage (modem t)) : ∀ (fuel : Nat) (check : Bool) (now : Nat) (s : St), timeout ≤ now + 1000 * fuel → ∀ e,
    (timedCoverage modem wait timeout fuel check now s).1.1 = .error e → e = .timeout none ∧ timeout ≤ (timedCoverage modem wait timeout fuel check now s).2
  | 0, check, now, s, h, e => by
    have hc : timedCoverage modem wait timeout 0 check now s = ((.error (.timeout none), s), now) := by cases check <;> rfl
    rw [hc]
    intro he
    cases he
    exact ⟨rfl, by simpa using h⟩
  | f + 1, check, now, s, h, e => by
    by_cases hn : timeout ≤ now
    · have hc : timedCoverage modem wait timeout (f + 1) check now s = ((.error (.timeout none), s), now) := by cases check <;> simp only [timedCoverage] <;> rw [if_pos hn]
      rw [hc]
      intro he
      cases he
      exact ⟨rfl, hn⟩
    · cases check with
      | true =>
        obtain ⟨c, h1, -⟩ := round_creg (wait := wait) (s := s) (fuel := f) (hd now) (A now) (by omega : now < timeout)
        rw [h1]
        exact coverage_late hd A f c _ _ (by omega) e
      | false =>
        rcases round_csq (wait := wait) (s := s) (fuel := f) (hd now) (A now) (by omega : now < timeout) with ⟨v, _, h1⟩ | ⟨h1, _⟩
        · rw [h1]; intro he; cases he
        · rw [h1]
          exact coverage_late hd A f false _ _ (by omega) e

/-- The method does not give up before the timeout, as long as the modem answers and does not say that it will not be registered. -/
theorem C108_not_early (hd : ∀ t, 0 < (modem t).depth) (A : ∀ t, TellsCoverage (modem t)) {s : St} {e : PyErr} (h : (coverageWithin modem wait timeout s).1.1 = .error e) :
    e = .timeout none ∧ timeout ≤ (coverageWithin modem wait timeout s).2 :=
  coverage_late hd A _ true 0 s (by omega) e h

theorem coverage_found {T w τ : Nat} (hd : ∀ t, 0 < (modem t).depth) (A : ∀ t, TellsCoverage (modem t)) (C : ∀ t, τ ≤ t → Covered (modem t)) (hT : ∀ log, wait log ≤ T)
    (ht : τ + 2 * (T + 100 * w + 1000) ≤ timeout) : ∀ (fuel : Nat) (check : Bool) (now : Nat) (s : St), s.writeWait = w → timeout ≤ now + 1000 * fuel →
    (now < τ + (T + 100 * w + 1000) ∨ check = false ∧ now < τ + 2 * (T + 100 * w + 1000)) →
    ∃ v, 0 < v ∧ (timedCoverage modem wait timeout fuel check now s).1.1 = .ok v ∧ (timedCoverage modem wait timeout fuel check now s).2 < τ + 2 * (T + 100 * w + 1000) + (T + 100 * w)
  | 0, check, now, s, hw, hf, hi => by omega
  | f + 1, true, now, s, hw, hf, hi => by
    have hi' : now < τ + (T + 100 * w + 1000) := by
      rcases hi with h | ⟨h, _⟩
      · exact h
      · cases h
    obtain ⟨c, h1, h2⟩ := round_creg (wait := wait) (s := s) (fuel := f) (hd now) (A now) (by omega : now < timeout)
    have hm := hT (cregCmd :: s.log)
    rw [h1]
    refine coverage_found hd A C hT ht f c _ { s with log := cregCmd :: s.log } hw (by rw [hw]; omega) ?_
    rw [hw]
    by_cases hc : τ ≤ now
    · exact .inr ⟨h2 (C now hc), by omega⟩
    · exact .inl (by omega)
  | f + 1, false, now, s, hw, hf, hi => by
    have hi' : now < τ + 2 * (T + 100 * w + 1000) := by omega
    have hm := hT (csqCmd :: s.log)
    rcases round_csq (wait := wait) (s := s) (fuel := f) (hd now) (A now) (by omega : now < timeout) with ⟨v, hv, h1⟩ | ⟨h1, h2⟩
    · rw [h1]
      refine ⟨v, hv, rfl, ?_⟩
      dsimp only
      rw [hw]
      omega
    · have hc : ¬ τ ≤ now := fun h => h2 (C now h)
      rw [h1]
      exact coverage_found hd A C hT ht f false _ { s with log := csqCmd :: s.log } hw (by rw [hw]; omega) (.inl (by rw [hw]; omega))

/-- If there is coverage from the moment `τ` on, and the timeout leaves two more rounds, the method returns a signal
strength within two rounds and one command of that moment. -/
theorem C108_prompt {T τ : Nat} {s : St} (hd : ∀ t, 0 < (modem t).depth) (A : ∀ t, TellsCoverage (modem t)) (C : ∀ t, τ ≤ t → Covered (modem t)) (hT : ∀ log, wait log ≤ T)
    (ht : τ + 2 * (T + 100 * s.writeWait + 1000) ≤ timeout) :
    ∃ v, 0 < v ∧ (coverageWithin modem wait timeout s).1.1 = .ok v ∧ (coverageWithin modem wait timeout s).2 < τ + 2 * (T + 100 * s.writeWait + 1000) + (T + 100 * s.writeWait) :=
  coverage_found hd A C hT ht _ true 0 s rfl (by omega) (.inl (by omega))

/-- With a timeout of not more than one second the method never returns a signal strength, whatever the modem answers. -/
theorem C108_short (h : timeout ≤ 1000) (s : St) : ∃ e, (coverageWithin modem wait timeout s).1.1 = .error e := by
  unfold coverageWithin
  simp only [timedCoverage]
  split
  · exact ⟨_, rfl⟩
  · rcases timedWrite (modem 0) wait py!"AT+CREG?" false [13] s with ⟨⟨e | ls, s'⟩, t⟩
    · exact ⟨_, rfl⟩
    · dsimp only
      cases cregNext ls with
      | error e => exact ⟨_, rfl⟩
      | ok check =>
        have hc : timedCoverage modem wait timeout (timeout / 1000 + 1) check (0 + t + 1000) s' = ((.error (.timeout none), s'), 0 + t + 1000) := by
          cases check <;> simp only [timedCoverage] <;> rw [if_pos (by omega)]
        dsimp only
        rw [hc]
        exact ⟨_, rfl⟩

/-! ### Examples -/

/-- A modem that finds the network after the given time. -/
def findsAfter (τ t : Nat) : Env where
  reply log :=
    if log.head? = some cregCmd then .lines [if τ ≤ t then py!"+CREG: 0,1" else py!"+CREG: 0,2", py!"OK"]
    else .lines [if τ ≤ t then py!"+CSQ: 18,99" else py!"+CSQ: 99,99", py!"OK"]
  depth := 5
  order := id
  order_perm _ := List.Perm.refl _

theorem findsAfter_covered {τ t : Nat} (h : τ ≤ t) : Covered (findsAfter τ t) where
  creg log := by
    refine ⟨[py!"+CREG: 0,1", py!"OK"], by simp [findsAfter, h], by simp, .inl ⟨[], _, [py!"OK"], rfl, ⟨[32], 48, [], by decide, by simp [Spaces], by decide, by decide, by decide, .inl rfl⟩, by simp⟩⟩
  csq log := by
    have hc : (csqCmd :: log).head? ≠ some cregCmd := by simp; decide
    have hr : (findsAfter τ t).reply (csqCmd :: log) = .lines [py!"+CSQ: 18,99", py!"OK"] := by unfold findsAfter; simp only [if_neg hc, if_pos h]
    exact ⟨_, _, 18, hr, ⟨[32], py!"18", py!"99", by decide, by simp [Spaces], by simp [Digits], by decide⟩, by decide, by decide, ⟨_, _, hr, rfl, by decide, by decide⟩⟩

theorem findsAfter_tells (τ t : Nat) : TellsCoverage (findsAfter τ t) := by
  by_cases h : τ ≤ t
  · have C := findsAfter_covered h
    refine ⟨fun log => ?_, fun log => ?_⟩
    · obtain ⟨ls, h1, h2, h3 | h3⟩ := C.creg log
      · exact ⟨ls, 1, h1, h2, h3, by decide, by decide⟩
      · exact ⟨ls, 5, h1, h2, h3, by decide, by decide⟩
    · obtain ⟨l, ls, n, h1, h2, _, _, h3⟩ := C.csq log
      exact ⟨l, ls, n, h1, h2, h3⟩
  · refine ⟨fun log => ?_, fun log => ?_⟩
    · exact ⟨[py!"+CREG: 0,2", py!"OK"], 2, by simp [findsAfter, h], by simp, ⟨[], _, [py!"OK"], rfl, ⟨[32], 48, [], by decide, by simp [Spaces], by decide, by decide, by decide, .inl rfl⟩, by simp⟩,
        by decide, by decide⟩
    · have hc : (csqCmd :: log).head? ≠ some cregCmd := by simp; decide
      have hr : (findsAfter τ t).reply (csqCmd :: log) = .lines [py!"+CSQ: 99,99", py!"OK"] := by unfold findsAfter; simp only [if_neg hc, if_neg h]
      exact ⟨_, _, 99, hr, ⟨[32], py!"99", py!"99", by decide, by simp [Spaces], by simp [Digits], by decide⟩, ⟨_, _, hr, rfl, by decide, by decide⟩⟩

/-- Such a modem satisfies the conditions. -/
example (τ : Nat) (s : St) : ∃ v, 0 < v ∧ (coverageWithin (findsAfter τ) (fun _ => 100) (τ + 2 * (100 + 100 * s.writeWait + 1000)) s).1.1 = .ok v :=
  have ⟨v, h1, h2, _⟩ := C108_prompt (s := s) (fun _ => (by decide : 0 < 5)) (findsAfter_tells τ) (fun _ => findsAfter_covered) (fun _ => Nat.le_refl 100) (Nat.le_refl _)
  ⟨v, h1, h2⟩

/-- It finds the network after 2.5 seconds: two rounds without, then the registration, then the signal. -/
example : (coverageWithin (findsAfter 2500) (fun _ => 100) 10000 {}).1.1 = .ok 18 ∧ (coverageWithin (findsAfter 2500) (fun _ => 100) 10000 {}).2 = 4500 := by decide +kernel

/-- The timeout is looked at only once in a round: half a second of timeout takes more than one second. -/
theorem C108_later : (coverageWithin (findsAfter 99999) (fun _ => 400) 500 {}).1.1 = .error (.timeout none) ∧ (coverageWithin (findsAfter 99999) (fun _ => 400) 500 {}).2 = 1400 ∧
    (coverageWithin (findsAfter 99999) (fun _ => 400) 1401 {}).2 = 1401 + 400 + 1000 - 1 := by decide +kernel

/-- Coverage that is there from the beginning is reported only after a second. -/
theorem C108_second : (coverageWithin (findsAfter 0) (fun _ => 400) 5000 {}).1.1 = .ok 18 ∧ (coverageWithin (findsAfter 0) (fun _ => 400) 5000 {}).2 = 1800 ∧
    (coverageWithin (findsAfter 0) (fun _ => 0) 1000 {}).1.1 = .error (.timeout none) := by decide +kernel

end Gsm
