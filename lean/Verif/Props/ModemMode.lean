import Verif.Lemmas.ModemFrame
import Verif.Spec.ExampleModem
/-! # Property C35: the SMS mode attribute reflects the modem -/
namespace Gsm
open M Spec

variable {env : Env}

/-- While connected, the attribute is the mode of the last accepted mode command. -/
def ModeOk (env : Env) (s : St) : Prop := s.alive = true ∧ LastAccepted env.reply SelectsMode s.log (modeCmd s.smsTextMode)

theorem modeOk_plain {a b : St} (h : PlainFrame a b) (ha : ModeOk env a) : ModeOk env b := by
  obtain ⟨⟨new, h1, h2⟩, h3⟩ := h
  simp only [modeMem, Prod.mk.injEq] at h3
  obtain ⟨h4, h5, _⟩ := h3
  refine ⟨h4.trans ha.1, ?_⟩
  rw [h5, h1]
  exact last_append ha.2 fun c hc => (h2 c hc).1

theorem modeOk_pre : IsPre fun a b => ModeOk env a → ModeOk env b :=
  ⟨fun _ h => h, fun h1 h2 h => h2 (h1 h)⟩

theorem modeOk_write {data term : PyStr} {pe : Bool} (h : ¬ SelectsMode (data ++ term)) :
    Steps env (fun a b => ModeOk env a → ModeOk env b) (write data pe term) :=
  Steps.write fun _ k _ hs => ⟨hs.1, last_replicate h hs.2 k⟩

theorem not_mode_cpms (r : PyStr) : ¬ SelectsMode (py!"AT+CPMS=" ++ r) := by
  rintro (h | h) <;> simp at h

theorem modeOk_memory (m : Option PyStr) : Steps env (fun a b => ModeOk env a → ModeOk env b) (setSmsMemory m) := by
  have h : ∀ m, Steps env (fun a b => ModeOk env a → ModeOk env b) (write (cpmsCmd m)) := fun m =>
    modeOk_write (by rintro (h | h) <;> simp [cpmsCmd] at h)
  unfold setSmsMemory
  steps modeOk_pre
  exact h _

theorem modeOk_connectMemory : Steps env (fun a b => ModeOk env a → ModeOk env b) connectMemory := by
  unfold connectMemory
  steps modeOk_pre
  · exact modeOk_write (by simp [SelectsMode])
  · exact modeOk_write (by simpa using not_mode_cpms _)
  · exact modeOk_write (by simpa using not_mode_cpms _)

theorem selects_modeCmd (v : Bool) : SelectsMode (modeCmd v) := by cases v <;> simp [SelectsMode, modeCmd]
theorem modeCmd_eq (v : Bool) : py!"AT+CMGF=" ++ (if v then py!"1" else py!"0") ++ [13] = modeCmd v := by cases v <;> rfl

theorem writeMode_state (v : Bool) (s : St) : (write (py!"AT+CMGF=" ++ (if v then py!"1" else py!"0")) true [13] env s).2.alive = s.alive ∧
    (write (py!"AT+CMGF=" ++ (if v then py!"1" else py!"0")) true [13] env s).2.smsTextMode = s.smsTextMode := by
  obtain ⟨k, w, h, _⟩ := write_outcome (data := py!"AT+CMGF=" ++ (if v then py!"1" else py!"0")) (term := [13]) (env := env) s
  rw [h]; exact ⟨rfl, rfl⟩

/-- A mode change. -/
theorem modeOk_set (v : Bool) {s : St} (hs : ModeOk env s) : ModeOk env (setSmsTextMode v env s).2 := by
  have hdef : setSmsTextMode v env s = if v ≠ s.smsTextMode then
      (match write (py!"AT+CMGF=" ++ (if v then py!"1" else py!"0")) true [13] env s with
      | (.ok _, s1) => (.ok (), { s1 with smsTextMode := v })
      | (.error e, s1) => (.error e, s1)) else (.ok (), s) := by
    simp only [setSmsTextMode, run_bind, run_get, run_ite, run_modify, run_pure, hs.1, if_true]
    split
    · split <;> simp_all
    · rfl
  rw [hdef]
  split
  · obtain ⟨h1, h2⟩ := writeMode_state (env := env) v s
    split
    · next ls s1 he =>
      rw [he] at h1 h2
      refine ⟨h1.trans hs.1, ?_⟩
      have := write_ok_last (P := SelectsMode) he (by rw [modeCmd_eq]; exact selects_modeCmd v)
      rwa [modeCmd_eq] at this
    · next e s1 he =>
      rw [he] at h1 h2
      refine ⟨h1.trans hs.1, ?_⟩
      rw [h2]
      exact write_error_last he hs.2
  · exact hs

theorem modeOk_atom (a b : St) (h : Atom env a b) (ha : ModeOk env a) : ModeOk env b := by
  rcases atom_cases h with h | ⟨v, rfl⟩ | ⟨m, rfl⟩
  · exact modeOk_plain h ha
  · exact modeOk_set v ha
  · exact (modeOk_memory m).run a ha

theorem modeOk_connect {pin : Option PyStr} {s s' : St} (h : connect pin env s = (.ok (), s')) : ModeOk env s' := by
  unfold connect at h
  obtain ⟨_, s1, h1, h⟩ := bind_ok h
  obtain ⟨_, s2, h2, h⟩ := bind_ok h
  obtain ⟨⟨hint, cs⟩, s3, h3, h⟩ := bind_ok h
  obtain ⟨_, s4, h4, h⟩ := bind_ok h
  obtain ⟨_, s5, h5, h⟩ := bind_ok h
  obtain ⟨_, s6, h6, h⟩ := bind_ok h
  have ha1 : s1.alive = true := by cases h1; rfl
  have ha2 : s2.alive = true := by
    have := ((pf_basics (env := env) pin).run s1).2
    rw [h2] at this
    exact (congrArg Prod.fst this).trans ha1
  have ha3 : s3.alive = true := by
    have := ((pf_identify (env := env)).run s2).2
    rw [h3] at this
    exact (congrArg Prod.fst this).trans ha2
  have ha4 : s4.alive = true := by
    have := ((pf_callTable (env := env) hint cs).run s3).2
    rw [h4] at this
    exact (congrArg Prod.fst this).trans ha3
  have hj5 : ModeOk env s5 := by
    unfold connectSms at h5
    obtain ⟨_, t1, k1, g1⟩ := bind_ok h5
    obtain ⟨a2, t2, k2, g2⟩ := bind_ok g1
    obtain ⟨ls, t3, k3, g3⟩ := bind_ok g2
    clear h5 g1 g2
    have hb1 : t1.alive = true := by
      have := ((pf_write (env := env) (pe := false) (plain_const (py!"AT+COPS=3,0" ++ [13]))).run s4).2
      rw [k1] at this
      exact (congrArg Prod.fst this).trans ha4
    cases k2
    have hj : ModeOk env t3 := by
      obtain ⟨e1, e2⟩ := writeMode_state (env := env) t1.smsTextMode t1
      rw [k3] at e1 e2
      refine ⟨e1.trans hb1, ?_⟩
      have := write_ok_last (P := SelectsMode) k3 (by rw [modeCmd_eq]; exact selects_modeCmd _)
      rw [modeCmd_eq] at this
      rw [show t3.smsTextMode = t1.smsTextMode from e2]
      exact this
    have hw := fun n => pf_write (env := env) (pe := true) (plain_csca n)
    have hg := pf_getSmsc (env := env)
    have hset := pf_setSmsc (env := env)
    have key : ∀ {m : M Unit}, Steps env PlainFrame m → m env t3 = (.ok (), s5) → ModeOk env s5 := by
      intro m hm he
      have := hm.run t3
      rw [he] at this
      exact modeOk_plain this hj
    refine key ?_ g3
    pframe <;> first | exact hw _ | exact hset _
  have hj6 : ModeOk env s6 := by
    have := modeOk_connectMemory.run s5 hj5
    rwa [h6] at this
  have := (pf_notifications (env := env)).run s6
  rw [h] at this
  exact modeOk_plain this hj6

/-- Once connected, whatever happens, `smsTextMode` is the mode of the last accepted `AT+CMGF` command. -/
theorem C35_mode_reflects_modem [PyUnicode] {pin : Option PyStr} {s s' : St} (h : connect pin env s = (.ok (), s')) (ops : List Op) :
    LastAccepted env.reply SelectsMode (runOps env ops s').log (modeCmd (runOps env ops s').smsTextMode) :=
  (runOps_inv modeOk_atom ops (modeOk_connect h)).2

/-- A modem that rejects text mode the first time it is asked for. -/
def reluctant : Env := modemWith fun log =>
  if log.head? = some py!"AT+CMGF=1\r" ∧ (log.filter (· = py!"AT+CMGF=1\r")).length = 1 then some (.lines [py!"+CMS ERROR: 302"]) else none

example : (connect none reluctant {}).1 = .ok () := by decide +kernel
attribute [local instance] asciiUnicode in
example : (runOps reluctant [.setTextMode true] (connected reluctant)).smsTextMode = false ∧
    (runOps reluctant [.setTextMode true, .setTextMode true] (connected reluctant)).smsTextMode = true := by decide +kernel

/-- An assignment that fails leaves the attribute alone; one that succeeds sets it. -/
theorem C35_assignment (v : Bool) (s : St) :
    ((setSmsTextMode v env s).1 = .ok () → (setSmsTextMode v env s).2.smsTextMode = v) ∧
    (∀ e, (setSmsTextMode v env s).1 = .error e → (setSmsTextMode v env s).2.smsTextMode = s.smsTextMode) := by
  have hdef : setSmsTextMode v env s = if v ≠ s.smsTextMode then
      if s.alive then
        (match write (py!"AT+CMGF=" ++ (if v then py!"1" else py!"0")) true [13] env s with
        | (.ok _, s1) => (.ok (), { s1 with smsTextMode := v })
        | (.error e, s1) => (.error e, s1))
      else (.ok (), { s with smsTextMode := v }) else (.ok (), s) := by
    simp only [setSmsTextMode, run_bind, run_get, run_ite, run_modify, run_pure]
    split
    · split
      · split <;> simp_all
      · rfl
    · rfl
  rw [hdef]
  split
  · split
    · have h2 := (writeMode_state (env := env) v s).2
      split
      · simp
      · next he => rw [he] at h2; exact ⟨by simp, fun _ _ => h2⟩
    · simp
  · next hv => simp at hv; simp [hv]

end Gsm
