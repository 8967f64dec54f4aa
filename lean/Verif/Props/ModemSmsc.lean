import Verif.Lemmas.ModemFrame
import Verif.Lemmas.Connect
import Verif.Spec.Smsc
import Verif.Spec.ExampleModem
/-! # Property C64: the number of the SMS centre reflects the modem -/
namespace Gsm
open M Spec

variable {env : Env}

/-- While connected, a number that is known is the one the modem uses. -/
def CentreOk (env : Env) (s : St) : Prop := s.alive = true ∧ ∀ n, s.smscNumber = some n → SmscIs env.reply s.log n

/-! ### The number and the log -/

theorem smsc_append {reply : List PyStr → Reply} {log : List PyStr} {n : PyStr} (h : SmscIs reply log n) :
    ∀ {new : List PyStr}, (∀ c ∈ new, ¬ AffectsSmsc c) → SmscIs reply (new ++ log) n
  | [], _ => h
  | c :: new, hc => .keep (fun h => hc c (by simp) h.1) (smsc_append h fun c hx => hc c (by simp [hx]))

theorem smsc_error {data term n : PyStr} {s s' : St} {e : PyErr}
    (h : write data true term env s = (.error e, s')) (hl : SmscIs env.reply s.log n) : SmscIs env.reply s'.log n := by
  obtain ⟨k, w, hs, hbusy, hout⟩ := write_outcome (data := data) (term := term) (env := env) s
  rw [h] at hs hout
  dsimp only at hs
  subst hs
  have hlast : 0 < k → ¬ Accepted env.reply (List.replicate k (data ++ term) ++ s.log) := by
    intro hk
    rcases hout with ⟨ls, h1, _⟩ | ⟨d, _, _, h3⟩ | ⟨_, _, _, h3⟩
    · cases h1
    · rintro ⟨ls, line, h4, _⟩; rw [h3] at h4; cases h4
    · exact h3 hk
  have : ∀ j, j ≤ k → SmscIs env.reply (List.replicate j (data ++ term) ++ s.log) n := by
    intro j
    induction j with
    | zero => intro _; simpa using hl
    | succ j ih =>
      intro hj
      refine .keep ?_ (ih (by omega))
      rintro ⟨_, ha⟩
      by_cases hjk : j + 1 = k
      · subst hjk; exact hlast (by omega) ha
      · exact busy_not_accepted (hbusy j (by omega)) ha
  exact this k (Nat.le_refl k)

/-- What a successful write means. -/
theorem write_accepted {data term : PyStr} {s s' : St} {ls : List PyStr} (h : write data true term env s = (.ok ls, s')) :
    ∃ log, s'.log = (data ++ term) :: log ∧ env.reply ((data ++ term) :: log) = .lines ls ∧ Accepted env.reply ((data ++ term) :: log) := by
  obtain ⟨k, w, hs, _, hout⟩ := write_outcome (data := data) (term := term) (env := env) s
  rw [h] at hs hout
  rcases hout with ⟨ls, h1, h2, h3, h4⟩ | ⟨d, h1, _⟩ | ⟨e, h1, _⟩
  · dsimp only at hs
    subst hs
    cases h1
    obtain ⟨k, rfl⟩ : ∃ j, k = j + 1 := ⟨k - 1, by omega⟩
    exact ⟨_, rfl, h3, h4⟩
  · cases h1
  · cases h1

theorem csca_tells {line : PyStr} {g : List PyStr} : rxGroups cscaRegex line = some g ↔ ∃ n ds, g = [n, ds] ∧
    ∃ a t, line = py!"+CSCA:" ++ (a ++ (py!"\"" ++ (n ++ (py!"\"," ++ (ds ++ t))))) ∧ Spaces a ∧ n ≠ [] ∧ 44 ∉ n ∧
      Digits ds ∧ (t = [] ∨ t = [10]) := csca_iff

theorem tells_match {line n : PyStr} (h : TellsNumber line n) : rxGroups cscaRegex line ≠ none := by
  obtain ⟨a, ds, t, h⟩ := h
  rw [csca_iff.2 ⟨n, ds, rfl, a, t, h⟩]
  simp

theorem tells_first : ∀ {ls : List PyStr} {n m : PyStr}, lineMatching (rxGroups cscaRegex) ls = some [n, m] → TellsFirst ls n
  | line :: ls, n, m, h => by
    unfold lineMatching at h
    split at h
    · next x hx =>
      cases h
      obtain ⟨n', ds, e, a, t, h⟩ := csca_iff.1 hx
      cases e
      exact ⟨[], line, ls, rfl, ⟨a, _, t, h⟩, by simp⟩
    · next hx =>
      obtain ⟨b, l, z, rfl, h1, h2⟩ := tells_first h
      refine ⟨line :: b, l, z, rfl, h1, ?_⟩
      intro l' hl' m' hm
      rcases List.mem_cons.1 hl' with rfl | hl'
      · exact tells_match hm hx
      · exact h2 l' hl' m' hm

/-! ### What most operations leave alone -/

abbrev CalmFrame : St → St → Prop := Frame (fun c => ¬ AffectsSmsc c) fun s => (s.alive, s.smscNumber)

theorem centreOk_calm {a b : St} (h : CalmFrame a b) (ha : CentreOk env a) : CentreOk env b := by
  obtain ⟨⟨new, h1, h2⟩, h3⟩ := h
  simp only [Prod.mk.injEq] at h3
  refine ⟨h3.1.trans ha.1, fun n hn => ?_⟩
  rw [h1]
  exact smsc_append (ha.2 n (h3.2 ▸ hn)) h2

theorem cf_write {data term : PyStr} {pe : Bool} (h : ¬ AffectsSmsc (data ++ term)) : Steps env CalmFrame (write data pe term) :=
  frame_write h fun _ _ _ => rfl
theorem calm_cpms (p rest : PyStr) (h1 : p.isPrefixOf py!"AT+CSCA=" = false := by decide) (h2 : py!"AT+CSCA=".isPrefixOf p = false := by decide)
    (h3 : p.isPrefixOf py!"AT+CSMP=" = false := by decide) (h4 : py!"AT+CSMP=".isPrefixOf p = false := by decide) : ¬ AffectsSmsc (p ++ rest) := by
  rintro ⟨h | h, _⟩ <;> rcases List.prefix_or_prefix_of_prefix (List.prefix_append p rest) h with h | h <;>
    rw [← List.isPrefixOf_iff_prefix] at h <;> simp_all

macro "cframe" : tactic => `(tactic| (steps frame_pre) <;> try first
  | exact cf_write (calm_const _).2
  | exact frame_same rfl rfl)

theorem cf_setAnswered (i : Nat) (v : Bool) : Steps env CalmFrame (setAnswered i v) := by
  unfold setAnswered callback; cframe
theorem cf_hangup (i : Nat) : Steps env CalmFrame (hangup i) := by
  have := cf_setAnswered (env := env) i false
  unfold hangup stopRinging hangupActive; cframe
theorem cf_answer (i : Nat) : Steps env CalmFrame (answer i) := by
  have := cf_setAnswered (env := env) i true
  unfold answer; cframe
theorem cf_ended (c : Option Int) (a b : Bool) : Steps env CalmFrame (handleCallEnded c a b) := by
  have := fun i => cf_setAnswered (env := env) i false
  unfold handleCallEnded; cframe <;> exact this _
theorem cf_textMode (v : Bool) : Steps env CalmFrame (setSmsTextMode v) := by
  have h : ∀ p : PyStr, Steps env CalmFrame (write (py!"AT+CMGF=" ++ p)) := fun p =>
    cf_write (by simpa using calm_cpms py!"AT+CMGF=" (p ++ [13]))
  unfold setSmsTextMode; cframe <;> exact h _
theorem cf_memory (m : Option PyStr) : Steps env CalmFrame (setSmsMemory m) := by
  have h : ∀ m, Steps env CalmFrame (write (cpmsCmd m)) := fun m => cf_write (by simpa [cpmsCmd] using calm_cpms py!"AT+CPMS=" _)
  unfold setSmsMemory; cframe
  exact h _

/-! ### Reading and setting the number -/

theorem write_keeps (data term : PyStr) (pe : Bool) (s : St) : (write data pe term env s).2.alive = s.alive ∧
    (write data pe term env s).2.smscNumber = s.smscNumber := by
  have := (Steps.write (env := env) (R := fun a b => b.alive = a.alive ∧ b.smscNumber = a.smscNumber) (data := data) (term := term) (pe := pe)
    fun s k w => ⟨rfl, rfl⟩).run s
  exact this

theorem centreOk_query {s : St} (hs : CentreOk env s) : CentreOk env (write py!"AT+CSCA?" true [13] env s).2 :=
  centreOk_calm ((cf_write (calm_const _).2).run s) hs

/-- The possible outcomes of reading the number. -/
theorem getSmsc_cases (s : St) : (∃ n, s.smscNumber = some n ∧ getSmsc env s = (.ok (some n), s)) ∨ (s.smscNumber = none ∧
    ((∃ ls s1 n m, write py!"AT+CSCA?" true [13] env s = (.ok ls, s1) ∧ lineMatching (rxGroups cscaRegex) ls = some [n, m] ∧
        getSmsc env s = (.ok (some n), { s1 with smscNumber := some n })) ∨
      (∃ r, getSmsc env s = (r, (write py!"AT+CSCA?" true [13] env s).2) ∧ ∀ v, r = .ok v → v = (write py!"AT+CSCA?" true [13] env s).2.smscNumber))) := by
  cases hn : s.smscNumber with
  | some n => exact .inl ⟨n, rfl, by unfold getSmsc; rw [bind_run (run_get s), hn]; rfl⟩
  | none =>
    refine .inr ⟨rfl, ?_⟩
    unfold getSmsc
    rw [bind_run (run_get s), hn]
    dsimp only
    cases hw : write py!"AT+CSCA?" true [13] env s with
    | mk r s1 =>
      cases r with
      | ok ls =>
        rw [bind_run (except_ok (bind_run hw))]
        dsimp only
        by_cases hm : ∃ n m, lineMatching (rxGroups cscaRegex) ls = some [n, m]
        · obtain ⟨n, m, hm⟩ := hm
          exact .inl ⟨ls, s1, n, m, rfl, hm, by rw [hm]; dsimp only; rw [bind_run (run_modify _ _), bind_run (run_get _), run_pure]⟩
        · refine .inr ⟨.ok s1.smscNumber, ?_, by simp⟩
          rcases hg : lineMatching (rxGroups cscaRegex) ls with _ | _ | ⟨a, _ | ⟨b, _ | ⟨c, g⟩⟩⟩
          · rfl
          · rfl
          · rfl
          · exact absurd ⟨_, _, hg⟩ hm
          · rfl
      | error e =>
        refine .inr ?_
        by_cases hq : (fun e : PyErr => match e with | .command .smscUnknown _ => true | _ => false) e = true
        · rw [bind_run (except_caught (bind_err hw) hq)]
          exact ⟨.ok s1.smscNumber, rfl, by simp⟩
        · rw [bind_err (s' := s1) (e := e) (by unfold M.except; rw [bind_err hw]; exact if_neg hq)]
          exact ⟨_, rfl, by simp⟩

theorem centreOk_get {s : St} (hs : CentreOk env s) : CentreOk env (getSmsc env s).2 := by
  have hq := centreOk_query hs
  rcases getSmsc_cases (env := env) s with ⟨n, _, h⟩ | ⟨_, ⟨ls, s1, n, m, hw, hm, h⟩ | ⟨r, h, _⟩⟩
  · rw [h]; exact hs
  · rw [h]
    rw [hw] at hq
    refine ⟨hq.1, fun n' hn' => ?_⟩
    cases hn'
    obtain ⟨log, h1, h2, h3⟩ := write_accepted hw
    show SmscIs env.reply s1.log n
    rw [h1]
    exact .told h2 h3 (tells_first hm)
  · rw [h]; exact hq

/-- The result is the attribute. -/
theorem getSmsc_value {s s' : St} {v : Option PyStr} (h : getSmsc env s = (.ok v, s')) : s'.smscNumber = v ∧ s'.alive = s.alive := by
  have hk := write_keeps (env := env) py!"AT+CSCA?" [13] true s
  rcases getSmsc_cases (env := env) s with ⟨n, hn, h'⟩ | ⟨_, ⟨ls, s1, n, m, hw, hm, h'⟩ | ⟨r, h', hv⟩⟩
  · rw [h'] at h; cases h; exact ⟨hn, rfl⟩
  · rw [h'] at h; rw [hw] at hk; cases h; exact ⟨rfl, hk.1⟩
  · rw [h'] at h; cases h; exact ⟨(hv _ rfl).symm, hk.1⟩

theorem setSmsc_eq (n : Option PyStr) (s : St) : setSmsc n env s = if n ≠ s.smscNumber then
    if s.alive then
      (match write (cscaCmd (optStr n)) true [13] env s with
      | (.ok _, s1) => (.ok (), { s1 with smscNumber := n })
      | (.error e, s1) => (.error e, s1))
    else (.ok (), { s with smscNumber := n }) else (.ok (), s) := by
  simp only [setSmsc, run_bind, run_get, run_ite, run_modify, run_pure]
  split
  · split
    · split <;> simp_all
    · rfl
  · rfl

theorem setSmsc_value {n : Option PyStr} {s s' : St} (h : setSmsc n env s = (.ok (), s')) : s'.smscNumber = n := by
  rw [setSmsc_eq] at h
  split at h
  · split at h
    · split at h
      · cases h; rfl
      · cases h
    · cases h; rfl
  · next hv => cases h; exact (Classical.not_not.1 hv).symm

theorem centreOk_set (n : Option PyStr) {s : St} (hs : CentreOk env s) : CentreOk env (setSmsc n env s).2 := by
  have hdef : setSmsc n env s = if n ≠ s.smscNumber then
      (match write (cscaCmd (optStr n)) true [13] env s with
      | (.ok _, s1) => (.ok (), { s1 with smscNumber := n })
      | (.error e, s1) => (.error e, s1)) else (.ok (), s) := by
    rw [setSmsc_eq, hs.1]; rfl
  rw [hdef]
  split
  · obtain ⟨h1, h2⟩ := write_keeps (env := env) (cscaCmd (optStr n)) [13] true s
    split
    · next ls s1 he =>
      rw [he] at h1 h2
      refine ⟨h1.trans hs.1, fun m hm => ?_⟩
      cases hm
      obtain ⟨log, h3, h4, h5⟩ := write_accepted he
      rw [h3]
      have e : cscaCmd (optStr (some m)) ++ [13] = smscCmd m := by simp [cscaCmd, optStr, smscCmd]
      rw [e] at h5 ⊢
      exact .set h5
    · next e s1 he =>
      rw [he] at h1 h2
      exact ⟨h1.trans hs.1, fun m hm => smsc_error he (hs.2 m (h2 ▸ hm))⟩
  · exact hs

theorem centreOk_atom (a b : St) (h : Atom env a b) (ha : CentreOk env a) : CentreOk env b := by
  cases h with
  | getSmsc => exact centreOk_get ha
  | setSmsc n => exact centreOk_set n ha
  | cmd c k w hc => exact centreOk_calm ⟨⟨List.replicate k c, rfl, fun x hx => by rw [List.eq_of_mem_replicate hx]; exact hc.2⟩, rfl⟩ ha
  | textMode v => exact centreOk_calm ((cf_textMode v).run a) ha
  | memory m => exact centreOk_calm ((cf_memory m).run a) ha
  | answered i k _ => exact centreOk_calm ((cf_setAnswered i true).run a) ha
  | answeredFirst i _ => exact centreOk_calm ((cf_setAnswered i true).run a) ha
  | ended c x y => exact centreOk_calm ((cf_ended c x y).run a) ha
  | hangup i => exact centreOk_calm ((cf_hangup i).run a) ha
  | answer i => exact centreOk_calm ((cf_answer i).run a) ha
  | _ => exact centreOk_calm (frame_same rfl rfl) ha

/-! ### Connecting -/

theorem cf_connectMemory : Steps env CalmFrame connectMemory := by
  unfold connectMemory; cframe <;> exact cf_write (by simpa using calm_cpms py!"AT+CPMS=" _)
theorem cf_notifications : Steps env CalmFrame connectNotifications := by unfold connectNotifications; cframe

theorem cf_unlock (pin : Option PyStr) : Steps env CalmFrame (unlockSim pin) := by
  unfold unlockSim; cframe
  exact cf_write (by simpa using calm_cpms py!"AT+CPIN" _)
theorem cf_rest (pin : Option PyStr) (b : Bool) : Steps env CalmFrame (connectRest pin b) := by
  have := cf_unlock (env := env) pin
  unfold connectRest; cframe
theorem cf_basics (pin : Option PyStr) : Steps env CalmFrame (connectBasics pin) := by
  have := cf_unlock (env := env) pin
  have h2 := cf_rest (env := env) pin
  unfold connectBasics; cframe <;> exact h2 _
theorem cf_identify : Steps env CalmFrame connectIdentify := by
  have h1 : Steps env CalmFrame supportedCommands := by unfold supportedCommands; cframe
  have h2 : ∀ cs, Steps env CalmFrame (identifyCommands cs) := fun cs => by unfold identifyCommands; cframe
  have h3 : ∀ h, Steps env CalmFrame (identifyWind h) := fun h => by unfold identifyWind; cframe
  have h0 : Steps env CalmFrame manufacturer := by unfold manufacturer; cframe
  have h4 : ∀ h, Steps env CalmFrame (identifyOther h) := fun h => by unfold identifyOther; cframe
  unfold connectIdentify; cframe <;> first | exact h2 _ | exact h3 _ | exact h4 _
theorem cf_callTable (h : Nat) (cs : Option (List PyStr)) : Steps env CalmFrame (connectCallTable h cs) := by
  unfold connectCallTable
  refine Steps.modify fun s => ?_
  split
  · exact frame_same rfl rfl
  · split
    · exact frame_same rfl rfl
    · split <;> exact frame_same rfl rfl

/-- The number is cleared, and asked for again, so that setting the parameters of messages does not matter. -/
theorem centreOk_restore {s s' : St} {cur : Option PyStr} (ha : s.alive = true) (hc : cur = none → s.smscNumber = none)
    (h : (do
      if cur ≠ none then M.modify fun s => { s with smscNumber := none }
      let _ ← write py!"AT+CSMP=49,167,0,0" false
      if cur ≠ none then
        let now ← getSmsc
        if now ≠ cur then setSmsc cur : M Unit) env s = (.ok (), s')) : CentreOk env s' ∧ s'.smscNumber = cur := by
  have fin : ∀ {t t' : St}, t.alive = true → t.smscNumber = none →
      ((do let now ← getSmsc; if now ≠ cur then setSmsc cur : M Unit) env t = (.ok (), t')) → CentreOk env t' ∧ t'.smscNumber = cur := by
    intro t t' h1 h2 h3
    have h0 : CentreOk env t := ⟨h1, by simp [h2]⟩
    obtain ⟨now, t1, h4, h5⟩ := bind_ok h3
    have h6 := getSmsc_value h4
    have h7 := centreOk_get h0
    rw [h4] at h7
    rw [run_ite] at h5
    split at h5
    · have h8 := centreOk_set cur h7
      rw [h5] at h8
      refine ⟨h8, ?_⟩
      exact setSmsc_value h5
    · next he => cases h5; exact ⟨h7, h6.1.trans (by simpa using he)⟩
  cases cur with
  | none =>
    have hs := hc rfl
    simp only [ne_eq, not_true_eq_false, if_false] at h
    obtain ⟨_, t, h1, h2⟩ := bind_ok h
    cases h2
    have hk := write_keeps (env := env) py!"AT+CSMP=49,167,0,0" [13] false s
    rw [h1] at hk
    exact ⟨⟨hk.1.trans ha, fun n hn => nomatch hn.symm.trans (hk.2.trans hs)⟩, hk.2.trans hs⟩
  | some n =>
    simp only [ne_eq, reduceCtorEq, not_false_eq_true, if_true] at h
    rw [bind_run (run_modify _ _)] at h
    obtain ⟨_, t, h1, h2⟩ := bind_ok h
    have hk := write_keeps (env := env) py!"AT+CSMP=49,167,0,0" [13] false { s with smscNumber := none }
    rw [h1] at hk
    exact fin (hk.1.trans ha) hk.2 h2

theorem centreOk_connect {pin : Option PyStr} {s s' : St} (h : connect pin env s = (.ok (), s')) :
    CentreOk env s' ∧ ∀ n, s.smscNumber = some n → s'.smscNumber = some n := by
  unfold connect at h
  obtain ⟨_, s1, h1, h⟩ := bind_ok h
  obtain ⟨_, s2, h2, h⟩ := bind_ok h
  obtain ⟨⟨hint, cs⟩, s3, h3, h⟩ := bind_ok h
  obtain ⟨_, s4, h4, h⟩ := bind_ok h
  obtain ⟨_, s5, h5, h⟩ := bind_ok h
  obtain ⟨_, s6, h6, h⟩ := bind_ok h
  have a1 : s1.alive = true ∧ s1.smscNumber = s.smscNumber := by cases h1; exact ⟨rfl, rfl⟩
  have a2 : s2.alive = true ∧ s2.smscNumber = s.smscNumber := by
    have := ((cf_basics (env := env) pin).run s1).2
    rw [h2] at this
    exact ⟨(congrArg Prod.fst this).trans a1.1, (congrArg Prod.snd this).trans a1.2⟩
  have a3 : s3.alive = true ∧ s3.smscNumber = s.smscNumber := by
    have := ((cf_identify (env := env)).run s2).2
    rw [h3] at this
    exact ⟨(congrArg Prod.fst this).trans a2.1, (congrArg Prod.snd this).trans a2.2⟩
  have a4 : s4.alive = true ∧ s4.smscNumber = s.smscNumber := by
    have := ((cf_callTable (env := env) hint cs).run s3).2
    rw [h4] at this
    exact ⟨(congrArg Prod.fst this).trans a3.1, (congrArg Prod.snd this).trans a3.2⟩
  have a5 : CentreOk env s5 ∧ ∀ n, s.smscNumber = some n → s5.smscNumber = some n := by
    unfold connectSms at h5
    obtain ⟨_, t1, k1, g1⟩ := bind_ok h5
    obtain ⟨a2, t2, k2, g2⟩ := bind_ok g1
    obtain ⟨ls, t3, k3, g3⟩ := bind_ok g2
    obtain ⟨b2, t4, k4, g4⟩ := bind_ok g3
    clear h5 g1 g2 g3
    have w1 := write_keeps (env := env) py!"AT+COPS=3,0" [13] false s4
    rw [k1] at w1
    cases k2
    have w2 := write_keeps (env := env) (py!"AT+CMGF=" ++ (if t1.smsTextMode then py!"1" else py!"0")) [13] true t1
    rw [k3] at w2
    cases k4
    have b1 : t3.alive = true := w2.1.trans (w1.1.trans a4.1)
    have b2 : t3.smscNumber = s.smscNumber := w2.2.trans (w1.2.trans a4.2)
    cases hn : t3.smscNumber with
    | some n =>
      rw [hn] at g4
      obtain ⟨_, t5, k5, g5⟩ := bind_ok g4
      have w3 := write_keeps (env := env) (cscaCmd n) [13] true t3
      rw [k5] at w3
      obtain ⟨r1, r2⟩ := centreOk_restore (cur := some n) (w3.1.trans b1) (nomatch ·) g5
      refine ⟨r1, fun m hm => ?_⟩
      rw [r2, ← hm, ← b2, hn]
    | none =>
      rw [hn] at g4
      obtain ⟨cur, t5, k5, g5⟩ := bind_ok g4
      have w3 := getSmsc_value k5
      obtain ⟨r1, r2⟩ := centreOk_restore (cur := cur) (w3.2.trans b1) (fun e => w3.1.trans e) g5
      refine ⟨r1, fun m hm => ?_⟩
      rw [← b2, hn] at hm
      cases hm
  have a6 : CalmFrame s5 s6 := by have := cf_connectMemory.run (env := env) s5; rwa [h6] at this
  have a7 : CalmFrame s6 s' := by have := cf_notifications.run (env := env) s6; rwa [h] at this
  refine ⟨centreOk_calm a7 (centreOk_calm a6 a5.1), fun n hn => ?_⟩
  exact (congrArg Prod.snd a7.2).trans ((congrArg Prod.snd a6.2).trans (a5.2 n hn))

/-- Once connected, whatever happens, a number the library knows is the number the modem has last accepted or told. -/
theorem C64_smsc_reflects_modem [PyUnicode] {pin : Option PyStr} {s s' : St} (h : connect pin env s = (.ok (), s')) (ops : List Op)
    {n : PyStr} (hn : (runOps env ops s').smscNumber = some n) : SmscIs env.reply (runOps env ops s').log n :=
  (runOps_inv centreOk_atom ops (centreOk_connect h).1).2 n hn

/-- A number set before connecting is still there afterwards. -/
theorem C64_connect {pin : Option PyStr} {s s' : St} (h : connect pin env s = (.ok (), s')) {n : PyStr} (hn : s.smscNumber = some n) :
    s'.smscNumber = some n := (centreOk_connect h).2 n hn

/-- An assignment that fails leaves the number alone; one that succeeds sets it. -/
theorem C64_assignment (n : Option PyStr) (s : St) :
    ((setSmsc n env s).1 = .ok () → (setSmsc n env s).2.smscNumber = n) ∧
    (∀ e, (setSmsc n env s).1 = .error e → (setSmsc n env s).2.smscNumber = s.smscNumber) := by
  refine ⟨fun h => setSmsc_value (Prod.ext h rfl), fun e h => ?_⟩
  rw [setSmsc_eq] at h ⊢
  split
  · next hv =>
    rw [if_pos hv] at h
    split
    · next ha =>
      rw [if_pos ha] at h
      have h2 := (write_keeps (env := env) (cscaCmd (optStr n)) [13] true s).2
      split
      · next he => rw [he] at h; cases h
      · next he => rw [he] at h2; exact h2
    · next ha => rw [if_neg ha] at h; cases h
  · rfl

/-- A modem that forgets the number of the SMS centre when the parameters of messages are set. -/
def forgetful : Env := modemWith fun log =>
  if log.head? = some py!"AT+CSCA?\r" then
    some (.lines (if (log.find? fun c => py!"AT+CSCA=".isPrefixOf c || py!"AT+CSMP=".isPrefixOf c) = some py!"AT+CSCA=\"+123\"\r" then
      [py!"+CSCA: \"+123\",145", py!"OK"] else [py!"+CMS ERROR: 330"]))
  else none

example : (connect none forgetful { smscNumber := some py!"+123" }).1 = .ok () ∧
    (connect none forgetful { smscNumber := some py!"+123" }).2.smscNumber = some py!"+123" ∧
    ((connect none forgetful { smscNumber := some py!"+123" }).2.log.filter fun c => py!"AT+CSCA".isPrefixOf c || py!"AT+CSMP".isPrefixOf c) =
      [py!"AT+CSCA=\"+123\"\r", py!"AT+CSCA?\r", py!"AT+CSMP=49,167,0,0\r", py!"AT+CSCA=\"+123\"\r"] := by decide +kernel

/-- Setting the number to `None` while connected makes the modem use the number `None`. -/
theorem C64_none {s : St} (ha : s.alive = true) {n : PyStr} (hn : s.smscNumber = some n) (h : (setSmsc none env s).1 = .ok ()) :
    (setSmsc none env s).2.smscNumber = none ∧ SmscIs env.reply (setSmsc none env s).2.log py!"None" := by
  refine ⟨(C64_assignment none s).1 h, ?_⟩
  rw [setSmsc_eq, hn, ha] at h ⊢
  simp only [ne_eq, reduceCtorEq, not_false_eq_true, if_true] at h ⊢
  split at h
  · next ls s1 he =>
    obtain ⟨log, h1, _, h2⟩ := write_accepted he
    show SmscIs env.reply s1.log _
    rw [h1]
    exact .set (n := py!"None") h2
  · cases h

example : (setSmsc none (modemWith fun _ => none) { alive := true, smscNumber := some py!"1" }).1 = .ok () := by decide +kernel

end Gsm
